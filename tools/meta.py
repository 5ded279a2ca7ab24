import json
P='/verif/properties.jsonl'; M='/verif/MANIFEST.json'
props=[json.loads(l) for l in open(P) if l.strip()]
man=json.load(open(M))
def prop(id,**kw):
    for d in props:
        if d['id']==id:
            d.update(kw); return
    d={'id':id}; d.update(kw)
    assert all(k in d for k in('title','statement','quantifier','why_tests_cant','anchors')),id
    props.append(d)
def claim(id,status,theorems,note):
    t=['Micromath.Props.'+x if not x.startswith('Micromath') else x for x in theorems]
    c={'property':id,'status':status,'theorems':t,'note':note}
    for i,d in enumerate(man['claims']):
        if d['property']==id: man['claims'][i]=c; return
    man['claims'].append(c)
def save():
    props.sort(key=lambda d:int(d['id'][1:])); man['claims'].sort(key=lambda d:int(d['property'][1:]))
    open(P,'w').write(''.join(json.dumps(d,ensure_ascii=False)+'\n' for d in props))
    open(M,'w').write(json.dumps(man,indent=1,ensure_ascii=False)+'\n')
