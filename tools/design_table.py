#!/usr/bin/env python3
"""Write DESIGN.md = design_head.md + the per-property table (from properties.jsonl, MANIFEST.json and
design_how.json) + design_tail.md + the list of refutations (theorems named ..._violates)."""
import json,os,re,glob
R=os.path.dirname(os.path.dirname(os.path.abspath(__file__)))
P=[json.loads(l) for l in open(R+'/properties.jsonl') if l.strip()]
M={c['property']:c for c in json.load(open(R+'/MANIFEST.json'))['claims']}
H=json.load(open(R+'/tools/design_how.json'))
out=[open(R+'/tools/design_head.md').read().rstrip()+'\n']
out.append('\n## 4. Properties\n\nThe exact theorem names are in MANIFEST.json; status `proved` is about the `statement` of properties.jsonl (for the properties with an `ideal`, the last column says how it fails).\n')
out.append('| id | property | what is modelled | how it is proved | status, notes |\n|----|----|----|----|----|')
for p in P:
    c=M[p['id']]; h=H[p['id']]
    out.append(f"| {p['id']} | {p['title']} | {h[0]} | {h[1]} | {c['status']}{'. '+c['note'] if c['note'] else ''} |")
out.append('\n'+open(R+'/tools/design_tail.md').read().rstrip()+'\n')
out.append('\n## 8. Defects of the code which are proved\n\nEvery theorem below proves, on a concrete witness or in general, that the code does not have a property one would expect.\n')
seen=set()
for f in sorted(glob.glob(R+'/lean/Verif/*.lean')):
    s=open(f).read()
    for m in re.finditer(r'/--((?:(?!-/).)*)-/\s*theorem (\w*(?:violates|_ub|diverges|unsound|accepts|unreported|leak|lost)\w*)',s,re.S):
        doc=' '.join(m.group(1).split()); n=m.group(2)
        doc=re.split(r'(?<=[.])\s',doc)[0]
        if len(doc)>260: doc=doc[:257]+'...'
        out.append(f"* `{n}` ({os.path.basename(f)}): {doc}")
open(R+'/DESIGN.md','w').write('\n'.join(out)+'\n')
