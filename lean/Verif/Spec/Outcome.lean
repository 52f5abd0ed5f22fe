import Verif.Model.ReadDocx

/-!
# What reading an archive comes to
-/

namespace Docx.Spec

/-- Reading the archive comes to `o`: it does so with any number of steps that is large enough. That it comes to `running` says that it
never ends. -/
def ComesTo (e : FileEnv) (es : List Entry) (o : Got ReadFile) : Prop := ∃ k, ∀ n, k ≤ n → readDocx e n es = o

end Docx.Spec
