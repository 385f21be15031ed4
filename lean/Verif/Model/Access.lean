import Verif.Model.Proxy

/-!
# canAccess and canWrite (checker.py:144-195)
-/

namespace ZS
variable {A : Type}

/-- `canAccess(obj, name)` (checker.py:179-195).  Note that the check is run on the *proxied*
object. -/
def canAccess (X : Ctx A) (o : Val) (n : Name) : M A Bool := do
  let p ← proxyFactory X o .none
  let c ← getChecker X p
  M.tryCatch (do
      chkCheck X (hasattrX X) .getattr c p n
      pure true) Exn.isUnauthorized (fun _ => pure false)

/-- The `try` statement of `canWrite` (checker.py:152-176). -/
def canWriteWith (X : Ctx A) (c p : Val) (n : Name) : M A Bool := fun s =>
  match chkCheck X (hasattrX X) .setattr c p n s with
  | (.ok (), s1) => (.ok true, s1)
  | (.err e, s1) =>
    if e.isUnauthorized then (.ok false, s1)
    else if e.isForbidden then
      (do
        M.tryCatch (chkCheck X (hasattrX X) .getattr c p n) Exn.isUnauthorized (fun _ => pure ())
        pure false : M A Bool) s1
    else (.err e, s1)
  | (.diverge, s1) => (.diverge, s1)

/-- `canWrite(obj, name)` (checker.py:144-176). -/
def canWrite (X : Ctx A) (o : Val) (n : Name) : M A Bool := do
  let p ← proxyFactory X o .none
  let c ← getChecker X p
  canWriteWith X c p n

end ZS
