import Verif.Model.MainText
import Verif.Model.ProgText

/-!
# The text of a program with the text of the library

The programs of /repo/test call the library.  Here the library they call is its own text: the
constructor and the member functions are executed from the trees that `tools/gen_text.py` extracts.
-/

namespace Verif.MainText

variable {α : Type} [Scalar α]

/-- The library as text, on the machine `env`.  The constructor looks at arrays of the caller: first the
reads are made (`ctorReads`), then the text of the constructor runs on what they hold.  `set_macro_strain`
and `get_macro_stress` run on the array of the caller itself, of whatever length: /repo/src/micro.cpp:28-146,
/repo/src/homogenize.cpp:90-130. -/
def Lib.text (env : Env α) : Lib α :=
  { ctor := fun dim micro a j f => do
      ctorReads dim a
      Text.ctorText env (a.args dim micro) j f
    setStrain := fun s id eps => do
      let t ← Text.tRun env .set_macro_strain ⟨s.obj, Text.callLoc id .macro_strain eps.size eps.val⟩
      pure { s with obj := t.obj }
    getStress := fun s id sig => do
      let t ← Text.tRun env .get_macro_stress ⟨s.obj, Text.callLoc id .macro_stress sig.size sig.val⟩
      pure ⟨{ s with obj := t.obj }, ⟨sig.size, Text.arrOut sig.val (t.l.v .macro_stress)⟩⟩
    call := fun s k => do
      let r ← Text.textStep env s k
      pure r.state }

end Verif.MainText
