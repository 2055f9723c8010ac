#!/usr/bin/env python3
# Generates lean/Verif/Model/DasRules.lean from /repo/pkg/mutator/dasrules.go
import json
t=open('/repo/pkg/mutator/dasrules.go').read()
j=t[t.index('`')+1:t.rindex('`')]
r=json.loads(j)
def b(s): return "["+", ".join(str(x) for x in s.encode())+"]"
lines=[]
# line numbers of each rule object
nums=[i+1 for i,l in enumerate(t.split('\n')) if l.strip().startswith('{')]
out='''import Verif.Model.MutatorTypes
/-!
# `pkg/mutator/dasrules.go:7-1946`

GENERATED by `tools/gen_rules.py`: the rule table obtained by decoding `dasRulesJSONString`
(`Verif.Props.Rules` proves that decoding the embedded text gives exactly this list).
-/
namespace Migp.Mutator

/-- dasrules.go:7-1946, the decoded rules in order. Each line: ruletype, position, string1,
string2. -/
def dasRules : List RDasRule := [
'''
assert len(nums)==len(r)
L=[]
for x,n in zip(r,nums):
    L.append("  ⟨%s, %d, %s, %s⟩"%(b(x['ruletype']),x['position'],b(x['string1']),b(x['string2'])))
out+=",\n".join(L)+"]\n\nend Migp.Mutator\n"
open('/verif/lean/Verif/Model/DasRules.lean','w').write(out)
