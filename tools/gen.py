import os,re,json,collections
root='/verif/lean/Verif'
mods=[]
for d,_,fs in os.walk(root):
    for f in fs:
        if f.endswith('.lean'):
            p=os.path.relpath(os.path.join(d,f),'/verif/lean')[:-5].replace('/','.')
            mods.append(p)
mods.sort()
open('/verif/lean/Verif.lean','w').write(''.join(f'import {m}\n' for m in mods))
thms=collections.defaultdict(list)
for d,_,fs in os.walk(root+'/Props'):
    for f in sorted(fs):
        for m in re.finditer(r'^theorem (C(\d{2,})_\w+)',open(os.path.join(d,f)).read(),re.M):
            thms['C'+m.group(2)].append('Verif.'+m.group(1))
notes=json.load(open('/verif/tools/notes.json')) if os.path.exists('/verif/tools/notes.json') else {}
claims=[]
for l in open('/verif/properties.jsonl'):
    pid=json.loads(l)['id']
    t=thms.get(pid,[])
    n=notes.get(pid,{})
    st=n.get('status', 'proved' if t else 'partial')
    if not t and pid not in notes:
        continue
    claims.append({"property":pid,"status":st,"theorems":t,"note":n.get('note','')})
json.dump({"claims":claims},open('/verif/MANIFEST.json','w'),indent=1)
print(len(mods),'modules',sum(map(len,thms.values())),'theorems',[p for p in thms])
