#!/usr/bin/env python3
# Generates lean/Verif/Model/DasRulesText.lean from /repo/pkg/mutator/dasrules.go: the embedded text, line by line.
t=open('/repo/pkg/mutator/dasrules.go').read()
j=t[t.index('`')+1:t.rindex('`')]
lines=j.split('\n')
assert '\\' not in j
# objects: a line "    {" up to "    }," or "    }"
out='''import Verif.Go.Basic
/-!
# `pkg/mutator/dasrules.go:7-1946`: the text

GENERATED by `tools/gen_rules_text.py`: the raw string literal `dasRulesJSONString`, line by line (each is
followed by a newline, except the last).
-/
namespace Migp.Mutator

'''
def q(s): return '"'+s.replace('\\','\\\\').replace('"','\\"')+'"'
CH=120
chunks=[lines[i:i+CH] for i in range(0,len(lines)-1,CH)]
chunks[-1]=[l for l in chunks[-1]]
if chunks[-1] and chunks[-1][-1] is lines[-1]: chunks[-1]=chunks[-1][:-1]
start=7
for n,c in enumerate(chunks):
    out+="/-- dasrules.go:%d-%d -/\ndef dasLines%d : List String := [\n  %s]\n\n"%(start,start+len(c)-1,n,",\n  ".join(q(l) for l in c))
    start+=len(c)
out+="/-- dasrules.go:%d, the last line (no newline follows it). -/\ndef dasLastLine : String := %s\n\n"%(start,q(lines[-1]))
out+="/-- The lines of the literal but the last. -/\ndef dasLines : List (List String) := [\n  %s]\n\n"%(", ".join("dasLines%d"%n for n in range(len(chunks))))
out+='''/-- dasrules.go:7-1946 `dasRulesJSONString`. -/
def dasRulesJSONString : GoString :=
  dasLines.flatMap (fun chunk => chunk.flatMap (fun l => ascii l ++ [10])) ++ ascii dasLastLine

end Migp.Mutator
'''
assert sum(map(len,chunks))+1==len(lines)
open('/verif/lean/Verif/Model/DasRulesText.lean','w').write(out)
