/-!
# Proxies and checkers under the cyclic garbage collector

Reference counts, the functions by which the C types take part in garbage collection, and the
collector of CPython as far as it depends on them.  The collector itself is not in `/repo`; it is
modelled after `Modules/gcmodule.c` (`update_refs`, `subtract_refs`, `move_unreachable`,
`delete_garbage`), without generations other than the choice of the objects examined, finalizers and
weak references.  Destructors do nothing but release references.  The order in which the references
released by nested deallocations are dealt with is immaterial here and is last in, first out.
-/

namespace ZS.Gc

/-- What an object refers to: the fields of the two C structures (`_proxy.c:111-114` with the field of
zope.proxy, `_zope_security_checker.c:55-58`), or the references of some other object.  The references
of a `fixed` object are set when it is made, and its type has no `tp_clear` (tuples); those of an `other`
object may be changed, and its `tp_clear` drops them. -/
inductive Body where
  | proxy (object checker : Option Nat)
  | checker (getperms setperms : Option Nat)
  | fixed (refs : List Nat)
  | other (refs : List Nat)
  deriving DecidableEq, Repr

/-- A function given to `tp_traverse`: called with an object it returns a number, and has a state of
its own (the `void *arg`). -/
abbrev Visit (σ : Type) := Nat → σ → Int × σ

/-- The visit of a field that may be NULL, which counts as 0. -/
def visitField {σ : Type} (visit : Visit σ) : Option Nat → σ → Int × σ
  | some o, s => visit o s
  | none, s => (0, s)

/-- `proxy_traverse` (`_proxy.c:316-322`); `Py_VISIT` returns what is not 0. -/
def proxyTraverse {σ : Type} (object checker : Option Nat) (visit : Visit σ) (s : σ) : Int × σ :=
  let (v, s) := visitField visit object s
  if v ≠ 0 then (v, s) else
  let (v, s) := visitField visit checker s
  if v ≠ 0 then (v, s) else
  (0, s)

/-- `Checker_traverse` (`_zope_security_checker.c:353-362`); what is not negative is overlooked. -/
def checkerTraverse {σ : Type} (getperms setperms : Option Nat) (visit : Visit σ) (s : σ) : Int × σ :=
  let (v, s) := visitField visit getperms s
  if v < 0 then (-1, s) else
  let (v, s) := visitField visit setperms s
  if v < 0 then (-1, s) else
  (0, s)

/-- `tp_traverse` of other types, with `Py_VISIT` (outside `/repo`). -/
def othersTraverse {σ : Type} (visit : Visit σ) : List Nat → σ → Int × σ
  | [], s => (0, s)
  | o :: os, s =>
    let (v, s) := visit o s
    if v ≠ 0 then (v, s) else othersTraverse visit os s

/-- The slot `tp_traverse` (`_proxy.c:791`, `_zope_security_checker.c:462`). -/
def traverse {σ : Type} : Body → Visit σ → σ → Int × σ
  | .proxy o c => proxyTraverse o c
  | .checker g s => checkerTraverse g s
  | .fixed refs => fun visit => othersTraverse visit refs
  | .other refs => fun visit => othersTraverse visit refs

/-- The macro `CLEAR` (`_proxy.c:116`, `_zope_security_checker.c:53`): the field afterwards, and the
references released. -/
def clearField : Option Nat → Option Nat × List Nat
  | some o => (none, [o])
  | none => (none, [])

/-- `proxy_clear` (`_proxy.c:300-306`); `tp_clear` of the base type clears the object. -/
def proxyClear (object checker : Option Nat) : (Option Nat × Option Nat) × List Nat :=
  let (checker, r1) := clearField checker
  let (object, r2) := clearField object
  ((object, checker), r1 ++ r2)

/-- `proxy_dealloc` (`_proxy.c:308-314`); `tp_dealloc` of the base type clears the object once more and
frees the memory. -/
def proxyDealloc (object checker : Option Nat) : List Nat :=
  let ((object, _), r1) := proxyClear object checker
  let (_, r2) := clearField object
  r1 ++ r2

/-- `Checker_clear` (`_zope_security_checker.c:337-343`). -/
def checkerClear (getperms setperms : Option Nat) : (Option Nat × Option Nat) × List Nat :=
  let (getperms, r1) := clearField getperms
  let (setperms, r2) := clearField setperms
  ((getperms, setperms), r1 ++ r2)

/-- `Checker_dealloc` (`_zope_security_checker.c:345-351`). -/
def checkerDealloc (getperms setperms : Option Nat) : List Nat :=
  (checkerClear getperms setperms).2

/-- The slot `tp_dealloc` (`_proxy.c:772`, `_zope_security_checker.c:443`): the references released. -/
def dealloc : Body → List Nat
  | .proxy o c => proxyDealloc o c
  | .checker g s => checkerDealloc g s
  | .fixed refs => refs
  | .other refs => refs

/-- The slot `tp_clear` (`_proxy.c:792`, which is 0 and not inherited since the type has a `tp_traverse`
and the flag of its own; `_zope_security_checker.c:463`): what is left and the references released,
unless there is no such slot. -/
def clear : Body → Option (Body × List Nat)
  | .proxy _ _ => none
  | .checker g s => let ((g, s), r) := checkerClear g s; some (.checker g s, r)
  | .fixed _ => none
  | .other refs => some (.other [], refs)

/-- The objects there are, with the reference counts.  `ext` and `lost` exist only in the model: how
many of the references are held by code outside, and how many nobody remembers. -/
structure Heap where
  objs : List (Nat × Body)
  next : Nat
  rc : Nat → Nat
  ext : Nat → Nat
  lost : Nat → Nat

/-- A function changed at one place. -/
def put {β : Type} (f : Nat → β) (o : Nat) (b : β) : Nat → β := fun k => if k = o then b else f k

/-- `Py_INCREF` of several. -/
def incref (os : List Nat) (h : Heap) : Heap := { h with rc := fun k => h.rc k + os.count k }

/-- The fields of an object, if it is there. -/
def Heap.body (h : Heap) (o : Nat) : Option Body := h.objs.lookup o

/-- Replace the fields of an object. -/
def Heap.store (h : Heap) (o : Nat) (b : Body) : Heap :=
  { h with objs := h.objs.map fun e => if e.1 = o then (o, b) else e }

/-- An object is freed. -/
def Heap.free (h : Heap) (o : Nat) : Heap :=
  { h with objs := h.objs.filter fun e => e.1 ≠ o, rc := put h.rc o 0 }

/-- `Py_DECREF` of several, with everything that follows from it; the number bounds the steps. -/
def releaseN : Nat → List Nat → Heap → Heap
  | 0, _, h => h
  | _ + 1, [], h => h
  | n + 1, o :: os, h =>
    if h.rc o ≤ 1 then
      match h.body o with
      | some b => releaseN n (dealloc b ++ os) (h.free o)
      | none => releaseN n os { h with rc := put h.rc o 0 }
    else releaseN n os { h with rc := put h.rc o (h.rc o - 1) }

/-- How many steps deallocations can take. -/
def weight (objs : List (Nat × Body)) : Nat := (objs.map fun e => (dealloc e.2).length).sum

/-- `Py_DECREF` of several. -/
def release (os : List Nat) (h : Heap) : Heap := releaseN (weight h.objs + os.length) os h

/-! ## The collector -/

/-- `visit_decref`: one reference less that comes from elsewhere. -/
def visitDecref (among : List Nat) : Visit (Nat → Int) := fun o g =>
  if o ∈ among then (0, put g o (g o - 1)) else (0, g)

/-- `subtract_refs`. -/
def subtractRefs (h : Heap) (among : List Nat) : List Nat → (Nat → Int) → Nat → Int
  | [], g => g
  | o :: os, g =>
    match h.body o with
    | some b => subtractRefs h among os (traverse b (visitDecref among) g).2
    | none => subtractRefs h among os g

/-- The lists of `move_unreachable`: still to be examined, tentatively unreachable, reachable. -/
structure Scan where
  refs : Nat → Int
  todo : List Nat
  unreachable : List Nat
  reachable : List Nat

/-- `visit_reachable`. -/
def visitReachable : Visit Scan := fun o s =>
  if o ∈ s.unreachable then
    (0, { s with refs := put s.refs o 1, todo := s.todo ++ [o], unreachable := s.unreachable.erase o })
  else if o ∈ s.todo ∧ s.refs o = 0 then (0, { s with refs := put s.refs o 1 })
  else (0, s)

/-- `move_unreachable`; the number bounds the steps. -/
def moveUnreachable (h : Heap) : Nat → Scan → Scan
  | 0, s => s
  | n + 1, s =>
    match s.todo with
    | [] => s
    | o :: os =>
      if s.refs o ≠ 0 then
        match h.body o with
        | some b => moveUnreachable h n (traverse b visitReachable { s with todo := os, reachable := s.reachable ++ [o] }).2
        | none => moveUnreachable h n { s with todo := os, reachable := s.reachable ++ [o] }
      else moveUnreachable h n { s with todo := os, unreachable := s.unreachable ++ [o] }

/-- `deduce_unreachable`: which of the objects examined are garbage. -/
def deduceUnreachable (h : Heap) (among : List Nat) : List Nat :=
  let refs := subtractRefs h among among fun o => (h.rc o : Int)
  (moveUnreachable h (2 * among.length)
    { refs := refs, todo := among, unreachable := [], reachable := [] }).unreachable

/-- `delete_garbage`: `tp_clear` of what is still there, with a reference held meanwhile. -/
def deleteGarbage : List Nat → Heap → Heap
  | [], h => h
  | o :: os, h =>
    match h.body o with
    | some b =>
      match clear b with
      | some (b', r) => deleteGarbage os (release [o] (release r ((incref [o] h).store o b')))
      | none => deleteGarbage os h
    | none => deleteGarbage os h

/-- A collection among some of the objects. -/
def collect (among : List Nat) (h : Heap) : Heap := deleteGarbage (deduceUnreachable h among) h

/-- `referrersvisit` of the `gc` module: 1 if the object is the one looked for. -/
def referrersVisit (target : Nat) : Visit Unit := fun o _ => if o = target then (1, ()) else (0, ())

/-- `gc.get_referrers` of one object, among some of the objects. -/
def getReferrers (h : Heap) (target : Nat) (among : List Nat) : List Nat :=
  among.filter fun o =>
    match h.body o with
    | some b => decide ((traverse b (referrersVisit target) ()).1 ≠ 0)
    | none => false

/-! ## What programs do -/

/-- What happens to the objects: making a proxy (`proxy_new`, `_proxy.c:263-290`), a checker, a tuple or
some other object, changing the references of other objects, a call of `Checker.__init__`
(`Checker_init`, `_zope_security_checker.c:364-382`), taking and giving up references, a collection. -/
inductive Op where
  | newProxy (object checker : Nat)
  | newChecker
  | newFixed (refs : List Nat)
  | newOther
  | setRefs (o : Nat) (refs : List Nat)
  | initChecker (o getperms : Nat) (setperms : Option Nat)
  | take (o : Nat)
  | drop (o : Nat)
  | collect (among : List Nat)
  deriving DecidableEq, Repr

/-- Is the object there. -/
def Heap.has (h : Heap) (o : Nat) : Bool := (h.body o).isSome

/-- A new object, referring to others, for the one who asked for it. -/
def Heap.make (h : Heap) (b : Body) (refs : List Nat) : Heap :=
  let h1 := incref refs h
  { h1 with objs := (h.next, b) :: h.objs, next := h.next + 1, rc := put h1.rc h.next 1, ext := put h.ext h.next 1 }

/-- One thing happens; what is impossible has no effect. -/
def step (h : Heap) : Op → Heap
  | .newProxy o c => if h.has o ∧ h.has c then h.make (.proxy (some o) (some c)) [o, c] else h
  | .newChecker => h.make (.checker none none) []
  | .newFixed refs => if ∀ r ∈ refs, h.has r then h.make (.fixed refs) refs else h
  | .newOther => h.make (.other []) []
  | .setRefs o refs =>
    match h.body o with
    | some (.other old) => if ∀ r ∈ refs, h.has r then release old ((incref refs h).store o (.other refs)) else h
    | _ => h
  | .initChecker o g s =>
    match h.body o with
    | some (.checker g0 s0) =>
      if h.has g ∧ ∀ x ∈ s.toList, h.has x then
        let h1 := (incref (g :: s.toList) h).store o (.checker (some g) s)
        { h1 with lost := fun k => h.lost k + (g0.toList ++ s0.toList).count k }
      else h
    | _ => h
  | .take o => if h.has o then { incref [o] h with ext := put h.ext o (h.ext o + 1) } else h
  | .drop o => if 0 < h.ext o then release [o] { h with ext := put h.ext o (h.ext o - 1) } else h
  | .collect among => if among.Nodup ∧ ∀ o ∈ among, h.has o then collect among h else h

/-- Nothing there yet. -/
def empty : Heap := ⟨[], 0, fun _ => 0, fun _ => 0, fun _ => 0⟩

/-- One thing after the other. -/
def run : List Op → Heap → Heap
  | [], h => h
  | op :: ops, h => run ops (step h op)

/-- `zope.proxy.setProxiedObject` (outside `/repo`), which works on security proxies too.  It is not one
of the operations above. -/
def setProxied (h : Heap) (p o : Nat) : Heap :=
  match h.body p with
  | some (.proxy old c) => if h.has o then release old.toList ((incref [o] h).store p (.proxy (some o) c)) else h
  | _ => h

end ZS.Gc
