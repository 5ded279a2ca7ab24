import Verif.Model.Text
import Verif.Float.Ops

/-!
# C140: formatting and parsing
-/

namespace Micromath.Props
open F32

/-- **C140, options.** `{}`, `{:e}` and `{:E}` of an `F32` write the text that the `f32` inside has with default options, whatever width,
precision, fill, alignment or sign the caller asks for. `{:?}` passes the options on and wraps the text in `F32(..)`. -/
theorem C140_options [StdText] (o : FmtOpts) (x : Newtype) :
    x.display o = StdText.fmt .display {} x.inner ∧ x.lowerExp o = StdText.fmt .lowerExp {} x.inner ∧
    x.upperExp o = StdText.fmt .upperExp {} x.inner ∧ x.debug o = "F32(" ++ StdText.fmt .debug o x.inner ++ ")" :=
  ⟨rfl, rfl, rfl, rfl⟩

/-- **C140, parsing.** `F32::from_str` and `from_str_radix` accept exactly the texts that `f32` accepts, with the same value, and fail with
the same error on the others. -/
theorem C140_parse [StdText] (s : String) (r : Nat) (x : Newtype) (e : ParseErr) :
    (Newtype.fromStr s = .ok x ↔ StdText.parse s = .ok x.inner) ∧ (Newtype.fromStr s = .error e ↔ StdText.parse s = .error e) ∧
    (Newtype.fromStrRadix s r = .ok x ↔ StdText.parseRadix s r = .ok x.inner) ∧
    (Newtype.fromStrRadix s r = .error e ↔ StdText.parseRadix s r = .error e) := by
  have k : ∀ q : Except ParseErr F32, (q.map Newtype.mk = .ok x ↔ q = .ok x.inner) ∧ (q.map Newtype.mk = .error e ↔ q = .error e) := by
    intro q
    cases q with
    | error f => simp [Except.map]
    | ok y =>
      simp only [Except.map, Except.ok.injEq, reduceCtorEq, iff_self, and_true]
      exact ⟨fun h => h ▸ rfl, fun h => Newtype.ext h⟩
  exact ⟨(k _).1, (k _).2, (k _).1, (k _).2⟩

/-- **C140, round trip.** If `f32` values other than NaN survive being written and parsed (as the standard library documents), then so do `F32`
values, and for every option: `format!("{:.1}", x).parse()` returns exactly `x`, for `{}`, `{:e}` and `{:E}`. -/
theorem C140_round_trip [StdText] (t : FmtTrait) (h : ∀ y : F32, y.isNaN = false → StdText.parse (StdText.fmt t {} y) = .ok y)
    (o : FmtOpts) (x : Newtype) (hx : x.inner.isNaN = false) :
    (t = .display → Newtype.fromStr (x.display o) = .ok x) ∧ (t = .lowerExp → Newtype.fromStr (x.lowerExp o) = .ok x) ∧
    (t = .upperExp → Newtype.fromStr (x.upperExp o) = .ok x) := by
  have k := h x.inner hx
  refine ⟨?_, ?_, ?_⟩ <;> rintro rfl
  · exact ((C140_parse _ 0 x .empty).1).2 k
  · exact ((C140_parse _ 0 x .empty).1).2 k
  · exact ((C140_parse _ 0 x .empty).1).2 k

/-- **C140, equal texts.** If different `f32` values (other than NaN) have different texts, so have different `F32` values, for any two choices
of options. -/
theorem C140_injective [StdText] (h : ∀ y z : F32, y.isNaN = false → StdText.fmt .display {} y = StdText.fmt .display {} z → y = z)
    (o o' : FmtOpts) (x y : Newtype) (hx : x.inner.isNaN = false) : x.display o = y.display o' ↔ x = y :=
  ⟨fun e => Newtype.ext (h _ _ hx e), fun e => e ▸ rfl⟩

/-- A toy standard library that honours the precision: a number is a run of `x`, one for each unit of its bit pattern and one for each
digit of precision asked for. -/
@[reducible] def toyText : StdText where
  fmt _ o y := String.ofList (List.replicate (y.bits.toNat + o.precision.getD 0) 'x')
  parse s := .ok ⟨BitVec.ofNat 32 s.toList.length⟩
  parseRadix s _ := .ok ⟨BitVec.ofNat 32 s.toList.length⟩

theorem toy_length (t : FmtTrait) (o : FmtOpts) (y : F32) : (toyText.fmt t o y).toList.length = y.bits.toNat + o.precision.getD 0 := by
  show (String.ofList (List.replicate (y.bits.toNat + o.precision.getD 0) 'x')).toList.length = _
  simp

theorem toy_round_trip (t : FmtTrait) (y : F32) : toyText.parse (toyText.fmt t {} y) = .ok y := by
  show Except.ok (F32.mk (BitVec.ofNat 32 (toyText.fmt t {} y).toList.length)) = _
  rw [toy_length]
  simp

/-- **C140, the options are lost.** `F32` does not honour the precision where `f32` does: there is a standard library, meeting the round-trip
law of `C140_round_trip`, for which `{:.2}` of an `F32` differs from `{:.2}` of the `f32` inside, for every number. -/
theorem C140_false : ∃ S : StdText, (∀ t y, S.parse (S.fmt t {} y) = .ok y) ∧
    ∀ x : Newtype, x.display { precision := some 2 } ≠ S.fmt .display { precision := some 2 } x.inner := by
  refine ⟨toyText, toy_round_trip, fun x e => ?_⟩
  have k : (toyText.fmt .display {} x.inner).toList.length = (toyText.fmt .display { precision := some 2 } x.inner).toList.length :=
    congrArg (fun s : String => s.toList.length) e
  rw [toy_length, toy_length] at k
  simp at k

/-- Concrete case: with the toy library, `{:.1}` of `1.5` parses back to `1.5`. -/
theorem C140_case : letI := toyText; Newtype.fromStr ((Newtype.mk ⟨0x3fc00000#32⟩).display { precision := some 1 }) = .ok ⟨⟨0x3fc00000#32⟩⟩ :=
  letI := toyText
  (C140_round_trip .display (fun y _ => toy_round_trip _ y) _ ⟨⟨0x3fc00000#32⟩⟩ (by decide)).1 rfl

end Micromath.Props
