import json
for l in open('/verif/properties.jsonl'):
    d=json.loads(l); print(d['id'],d['title'])
