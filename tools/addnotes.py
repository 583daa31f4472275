#!/usr/bin/env python3
"""usage: addnotes.py <<< '{"C01": {"note": "..."}}'  (merge into notes.json)"""
import json, sys, pathlib
p = pathlib.Path(__file__).resolve().parent / 'notes.json'
d = json.loads(p.read_text()); d.update(json.load(sys.stdin))
p.write_text(json.dumps(d, indent=1, ensure_ascii=False) + '\n')
