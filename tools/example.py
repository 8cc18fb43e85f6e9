src=open('/repo/example/example.ini').read().split('\n')
assert src[-1]=='' 
src=src[:-1]
def q(l): return '"'+l.replace('\\','\\\\').replace('"','\\"')+'".toList'
out='''import Verif.Spec.Ini

set_option autoImplicit false

/-!
# The shipped example

Generated by `tools/example.py` from `example/example.ini`.
-/

namespace QED

/-- The lines of `example/example.ini` (lines 1-%d). -/
def exampleLines : List (List Char) :=
  [%s]

end QED
''' % (len(src), ',\n   '.join(q(l) for l in src))
print(out,end='')
