#!/usr/bin/env python3
"""DESIGN.md from scripts/DESIGN.tmpl.md and MANIFEST.json."""
import json,os
r=os.path.dirname(os.path.dirname(os.path.abspath(__file__)))
t=open(r+'/scripts/DESIGN.tmpl.md').read()
c=json.load(open(r+'/MANIFEST.json'))['claims']
t=t.replace('@@ROWS@@\n','').replace('@@FINDINGS@@\n','')
t=t.replace('@@STATUS@@','\n'.join(f"| {x['property']} | {x['status']} | {x.get('note','')} |" for x in c))
open(r+'/DESIGN.md','w').write(t)
