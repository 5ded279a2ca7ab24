import json,subprocess,re,collections
ths=[t for c in json.load(open('/verif/MANIFEST.json'))['claims'] for t in c['theorems']]
open('/tmp/w/ax.lean','w').write("import Verif\n"+"".join(f"#print axioms {t}\n" for t in ths))
o=subprocess.run(['lake','env','lean','/tmp/w/ax.lean'],cwd='/verif/lean',capture_output=True,text=True).stdout
o=re.sub(r'\n\s+',' ',o)
g=collections.defaultdict(list)
for l in o.splitlines():
    m=re.match(r"'(.*)' depends on axioms: \[(.*)\]",l)
    if m: g[m.group(2)].append(m.group(1)); continue
    m=re.match(r"'(.*)' does not depend",l)
    if m: g[''].append(m.group(1)); continue
    print("??",l)
for k,v in g.items(): print(len(v),'|',k,'|',v if len(v)<40 else v[:3])
print(len(ths))

json.dump(g,open('/tmp/w/axg.json','w'))
