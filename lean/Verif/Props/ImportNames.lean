import Verif.Props.Import
import Verif.Model.Proxy

/-! C73, continued: the names that the model of the C proxy checks. -/

namespace ZS.Props
open ZS.Imp.Spec

/-- The names by which the model of the C proxy calls the operators (`Model/Proxy.lean`) are held
by static variables of `_proxy.c`. -/
theorem C73_operators (env : Imp.Env) (l : List Imp.Mod) (hu : Imported (Imp.imports env l .fresh) .cproxy) :
    (∀ b : BinName, (∃ x, holdsText (Imp.imports env l .fresh) .cproxy x b.op) ∧
      ∃ x, holdsText (Imp.imports env l .fresh) .cproxy x b.rop) ∧
    (∀ b : InName, ∃ x, holdsText (Imp.imports env l .fresh) .cproxy x b.op) ∧
    (∀ b : UnName, b ≠ .complex → b ≠ .index →
      ∃ x, holdsText (Imp.imports env l .fresh) .cproxy x b.op) := by
  have key : ∀ n, n ∈ proxyTexts.map Prod.snd →
      ∃ x, holdsText (Imp.imports env l .fresh) .cproxy x n := by
    intro n hn
    obtain ⟨q, hq, rfl⟩ := List.mem_map.1 hn
    exact ⟨q.1, (C73_statics env l).1 hu q hq⟩
  refine ⟨fun b => ⟨key _ ?_, key _ ?_⟩, fun b => key _ ?_, fun b h1 h2 => key _ ?_⟩
  · cases b <;> decide +kernel
  · cases b <;> decide +kernel
  · cases b <;> decide +kernel
  · cases b <;> first | exact absurd rfl h1 | exact absurd rfl h2 | decide +kernel

example : Imported (Imp.imports ImportEx.calm [.pkg] .fresh) .cproxy :=
  Option.isSome_iff_exists.1 (show ImportEx.has (Imp.imports ImportEx.calm [.pkg] .fresh) .cproxy = true by
    decide +kernel)

end ZS.Props
