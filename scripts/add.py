"""usage: add.py file.json : {"props":[[title,statement,quantifier,why,anchors...]],"claims":{id:{note}},"rows":[...],"findings":[...]}; anchors are literal strings"""
import sys,json
j=json.load(open(sys.argv[1]))
p='scripts/gen_props.py'; s=open(p).read(); m='with open("/verif/properties.jsonl"'
new=''.join('p('+',\n  '.join(json.dumps(x,ensure_ascii=False) for x in q)+')\n' for q in j.get('props',[]))
open(p,'w').write(s.replace(m,new+m))
p='scripts/claims.json'; c=json.load(open(p)); c.update(j.get('claims',{})); json.dump(c,open(p,'w'),indent=1,ensure_ascii=False)
p='scripts/DESIGN.tmpl.md'; s=open(p).read()
for r in j.get('rows',[]): s=s.replace('@@ROWS@@',r+'\n@@ROWS@@')
for r in j.get('findings',[]): s=s.replace('@@FINDINGS@@',r+'\n@@FINDINGS@@')
open(p,'w').write(s)
