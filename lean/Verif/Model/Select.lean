import Verif.Model.Checker

/-!
# Choosing a checker and creating proxies

Models `selectChecker`, `Checker.proxy`, `ProxyFactory`, the decorator descriptor and
`removeSecurityProxy`/`getChecker`.
-/

namespace ZS
variable {A : Type}

/-- `Proxy(v, c)`: `None` is refused (proxy.py:88-90, _proxy.c:275-279).  Each proxy is a new
object. -/
def newProxy (v c : Val) : M A Val :=
  if c = .none then M.throw .valueError
  else do
    let s ← M.get
    M.modify fun s => { s with nextId := s.nextId + 1 }
    pure (.proxy s.nextId v c)

/-- The current `_wrapped` of a security proxy.  In C the slot never changes; in Python it may
have been re-assigned (proxy.py:50, 162-163). -/
def proxyWrapped (X : Ctx A) (s : St A) (id : Nat) (w : Val) : Val :=
  match X.impl with
  | .c => w
  | .py => (s.ovW id).getD w

/-- The current `_checker` of a security proxy. -/
def proxyChecker (X : Ctx A) (s : St A) (id : Nat) (c : Val) : Val :=
  match X.impl with
  | .c => c
  | .py => (s.ovC id).getD c

/-- `removeSecurityProxy` = `getObject` (proxy.py:346-349, 369; _proxy.c:826-838). -/
def removeProxy (X : Ctx A) (s : St A) : Val → Val
  | .proxy id w _ => proxyWrapped X s id w
  | v => v

/-- `getChecker` (proxy.py:339-340; _proxy.c:811-824): a TypeError on anything that is not a
security proxy. -/
def getChecker (X : Ctx A) : Val → M A Val
  | .proxy id _ c => do
    let s ← M.get
    pure (proxyChecker X s id c)
  | _ => M.throw .typeError

/-- The identifier of the default table's factory for modules,
`lambda module: _checkers.get(module, _namedChecker)` (checker.py:894). -/
def moduleFactory : Val := .fn 0

/-- `_namedChecker` (checker.py:734): checker 2, dictionaries 4 and 5. -/
def namedChecker : Val := .checker 2 4 5

/-- Calling a registry entry that is not a `Checker` with the object (checker.py:457).  Values
that are not callable raise `TypeError`. -/
def callFactory (X : Ctx A) (f o : Val) : M A Val :=
  match f with
  | .fn 0 => do
    let s ← M.get
    match o with
    | .module m => pure ((s.reg.get? (.mod m)).getD namedChecker)
    | _ => pure namedChecker
  | .none | .notImpl | .bool _ | .int _ | .str .. | .noProxy | .module _ | .ix _ => M.throw .typeError
  | f => probe X (.call f [o])

/-- The `while` loop of `selectChecker` (checker.py:456-460, _zope_security_checker.c:535-550). -/
def selectLoop (X : Ctx A) (o : Val) : Nat → Val → M A Val
  | fuel, c =>
    if c.isChecker then pure c
    else match fuel with
      | 0 => M.diverge
      | k + 1 => do
        let c' ← callFactory X c o
        if c' = .noProxy ∨ c' = .none then pure .none
        else selectLoop X o k c'

/-- The registry entry used for an object: `_getChecker(type(object), _defaultChecker)`
(checker.py:448). -/
def regEntry (W : World A) (s : St A) (o : Val) : Val :=
  (s.reg.get? (.ty (typeOf W o))).getD defaultChecker

/-- `selectCheckerPy` (checker.py:431-462); Python's `None` is `Val.none`. -/
def selectPy (X : Ctx A) (o : Val) : M A Val := do
  let s ← M.get
  let c := regEntry X.W s o
  if c = .noProxy then pure .none
  else selectLoop X o X.fuel c

/-- `selectChecker` in C (_zope_security_checker.c:500-555). -/
def selectC (X : Ctx A) (o : Val) : M A Val := do
  let s ← M.get
  let c := regEntry X.W s o
  if c = .noProxy then pure .none
  else if c = defaultChecker ∧ X.W.isExc o then pure .none
  else selectLoop X o X.fuel c

/-- `selectChecker` of the implementation in use. -/
def selectChecker (X : Ctx A) (o : Val) : M A Val :=
  match X.impl with
  | .py => selectPy X o
  | .c => selectC X o

/-- `getattr(v, '__Security_checker__', None)`: only AttributeError is swallowed. -/
def orNone (x : M A Val) : M A Val := M.tryCatch x Exn.isAttr (fun _ => pure .none)

/-- The second half of `DecoratedSecurityCheckerDescriptor.__get__` (decorator.py:43-55):
combine the decorated object's checker with the one registered for the decorator's class. -/
def decoCombine (X : Ctx A) (d checker : Val) : M A Val := do
  let wrapper ← selectChecker X d
  if wrapper = .none ∧ checker = .none then M.throw (.attributeError "__Security_checker__")
  else if wrapper = .none then pure checker
  else if checker = .none then pure wrapper
  else newCombined wrapper checker

/-- Evaluating the attribute `__Security_checker__` on a value that is not a security proxy.
Constants and the package's own objects have no such attribute; for a decorator it is computed
by `DecoratedSecurityCheckerDescriptor.__get__` (decorator.py:33-55); for application objects,
classes, modules and functions it is application code. -/
def getSC (X : Ctx A) : Val → M A Val
  | .deco id cls inner =>
    (match inner with
      | .proxy pid _ c => do
        let s ← M.get
        pure (proxyChecker X s pid c)
      | v => do
        let c ← orNone (getSC X v)
        if c = .none then selectChecker X v else pure c) >>= decoCombine X (.deco id cls inner)
  | .obj o => probe X (.getattr (.obj o) "__Security_checker__")
  | .type t => probe X (.getattr (.type t) "__Security_checker__")
  | .module m => probe X (.getattr (.module m) "__Security_checker__")
  | .fn f => probe X (.getattr (.fn f) "__Security_checker__")
  | _ => M.throw (.attributeError "__Security_checker__")

/-- `CheckerPy.proxy` (checker.py:280-290). -/
def proxyPy (X : Ctx A) (v : Val) : M A Val :=
  if v.isProxy then pure v
  else do
    let c ← orNone (getSC X v)
    if c = .none then do
      let c ← selectChecker X v
      if c = .none then pure v else newProxy v c
    else newProxy v c

/-- `Checker_proxy` (_zope_security_checker.c:260-313): every exception of the attribute lookup
is swallowed, and a `None` checker is refused. -/
def proxyC (X : Ctx A) (v : Val) : M A Val :=
  if v.isProxy then pure v
  else fun s =>
    match getSC X v s with
    | (.ok c, s1) => if c = .none then (.err .valueError, s1) else newProxy v c s1
    | (.err _, s1) => (do
        let c ← selectChecker X v
        if c = .none then pure v else newProxy v c : M A Val) s1
    | (.diverge, s1) => (.diverge, s1)

/-- `checker.proxy(v)` for any checker object; a foreign checker runs its own code. -/
def chkProxy (X : Ctx A) (c v : Val) : M A Val :=
  if c.isChecker then
    match X.impl with
    | .py => proxyPy X v
    | .c => proxyC X v
  else probe X (.method c "proxy" [v])

/-- `ProxyFactory(object, checker=None)` (checker.py:106-132). -/
def proxyFactory (X : Ctx A) (o c : Val) : M A Val :=
  if o.isProxy then do
    let c0 ← getChecker X o
    if c = .none ∨ c = c0 then pure o else M.throw .typeError
  else if c = .none then do
    let c ← orNone (getSC X o)
    if c = .none then do
      let c ← selectChecker X o
      if c = .none then pure o else newProxy o c
    else newProxy o c
  else newProxy o c

/-- `zope.security.proxy.isinstance` (proxy.py:379-386). -/
def secIsinstance (X : Ctx A) (o : Val) (cls : String) : M A Bool := do
  let s ← M.get
  pure (X.W.isInst (removeProxy X s o) cls)

end ZS
