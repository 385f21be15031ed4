import Verif.Spec.Mediation

/-!
# Specification of writes, texts and in-place operators
-/

namespace ZS.Spec
variable {A : Type}

/-- `op` writes or deletes attribute `n`, which on object `w` is operation `ro w`. -/
inductive Writes : POp → Name → (Val → RawOp) → Prop
  | set (n : Name) (v : Val) : Writes (.setattr n v) n fun w => .setattr w n v
  | del (n : Name) : Writes (.delattr n) n fun w => .delattr w n

/-- `op` makes a text with special method `n`. -/
inductive Texts : POp → Name → Prop
  | str : Texts .str "__str__"
  | repr : Texts .repr "__repr__"

/-- The generic text about an object: its class's module and name, and its address. -/
def genericText (module? : Option String) (name addr : String) : String :=
  match module? with
  | some m => "<security proxied " ++ m ++ "." ++ name ++ " instance at " ++ addr ++ ">"
  | none => "<security proxied " ++ name ++ " instance at " ++ addr ++ ">"

/-- The operations that assign a slot of the proxy itself: none of a compiled proxy. -/
def Repoints (impl : Impl) (op : POp) : Prop :=
  impl = .py ∧ ((∃ b o, op = .inplace b o) ∨ (∃ v, op = .setattr "_wrapped" v) ∨ ∃ v, op = .setattr "_checker" v)

end ZS.Spec
