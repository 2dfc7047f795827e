#!/usr/bin/env python3
"""Writes /verif/MANIFEST.json from tools/claims.txt.

claims.txt: one line per property:  Cnn status theorem1,theorem2,... | note
"""
import json, os
here=os.path.dirname(os.path.abspath(__file__))
claims=[]
for line in open(os.path.join(here,'claims.txt')):
    line=line.strip()
    if not line or line.startswith('#'): continue
    head,_,note=line.partition('|')
    parts=head.split()
    pid,status=parts[0],parts[1]
    th=[t for t in ''.join(parts[2:]).split(',') if t]
    claims.append(dict(property=pid,status=status,theorems=['SF.'+t for t in th],note=note.strip()))
json.dump(dict(claims=claims),open(os.path.join(here,'..','MANIFEST.json'),'w'),indent=1,ensure_ascii=False)
print(len(claims))
