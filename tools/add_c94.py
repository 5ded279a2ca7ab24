import sys; sys.path.insert(0,'/tmp/w'); from meta import *
prop('C94',title='Sum and mean: error against the exact mean',statement='For n <= 2^23 finite items whose magnitudes add up to at most 2^126, the running sum is finite and within ((1+2^-24)^n - 1) * sum|x| of the exact sum; mean is finite and within ((1+2^-24)^(n+1) - 1) * (sum|x|)/n + 2^-150 of the exact mean.',quantifier='all lists of finite f32 of that length, all build modes',why_tests_cant='lists of arbitrary length and arbitrary floats; accumulated rounding',anchors=["src/statistics/mean.rs: Mean::mean"])
prop('C95',title='variance and stddev: error against the exact sample variance',statement='For 2 <= n < 2^22 finite items of magnitude at most B <= 2^48, variance is finite, not negative and within (n+4)/2^23 * V + 3((n+1)/2^23 * B + 2^-150)^2 + 2^-147 of the exact sample variance V. For integer data of magnitude at most 255 (every u8 or i8 slice) and n <= 2^16 it is within V/127 + 2^-31; then stddev squared lies within 0.99 V..1.14 V.',quantifier='all slices of that length and range, every item type, all build modes',why_tests_cant='slices of arbitrary length and arbitrary floats; accumulated rounding and cancellation',anchors=["src/statistics/variance.rs: Variance::variance","src/statistics/stddev.rs: StdDev::stddev","src/statistics/mean.rs: Mean::mean"])
claim('C94','proved',['C94_sum','C94_mean'],'')
claim('C95','proved',['C95_variance','C95_variance_abs','C95_variance_bytes','C95_stddev_bytes'],'')
save()
