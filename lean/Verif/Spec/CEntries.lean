import Verif.Model.CCode

/-!
# The functions the extension modules give to the interpreter

As listed in the tables of methods and slots; arguments are kept alive by the caller.
-/

namespace ZS.CM

def HeldPtr (E : Env) (p : Ptr) : Prop := ∀ o, p = some o → E.held o = true

/-- Functions returning an object: `Checker_methods`, `Checker_getset`, `Checker_as_mapping`
(_zope_security_checker.c:315-330, 411-434), `selectChecker` (:500-555), `proxy_as_number`,
`proxy_as_sequence`, `proxy_as_mapping`, `proxy_methods`, the slots of `SecurityProxyType`
(_proxy.c:683-808) and `module_functions` (_proxy.c:840-843). -/
inductive ObjEntry (E : Env) : C Ptr → Prop
  | permissionId {self name} : E.held self = true → E.held name = true → ObjEntry E (permissionId E self name)
  | setattrPermissionId {self name} : E.held self = true → E.held name = true → ObjEntry E (setattrPermissionId E self name)
  | check {self object name} : E.held self = true → E.held object = true → E.held name = true → ObjEntry E (checkerCheck E self object name)
  | checkSetattr {self object name} : E.held self = true → E.held object = true → E.held name = true →
      ObjEntry E (checkerCheckSetattr E self object name)
  | proxy {fuel value} : E.held value = true → ObjEntry E (checkerProxy E fuel value)
  | getGetPermissions {self} : E.held self = true → ObjEntry E (getGetPermissions E self)
  | getSetPermissions {self} : E.held self = true → ObjEntry E (getSetPermissions E self)
  | selectChecker {fuel object} : E.held object = true → ObjEntry E (selectChecker E fuel object)
  | new {type object checker} : E.held type = true → E.held object = true → E.held checker = true →
      ObjEntry E (proxyNew E type object checker)
  | richcompare {fuel self other} (op : String) : E.held self = true → E.held other = true →
      ObjEntry E (proxyRichcompare E fuel op self other)
  | iter {fuel self} : E.held self = true → ObjEntry E (proxyIter E fuel self)
  | iternext {fuel self} : E.held self = true → ObjEntry E (proxyIternext E fuel self)
  | getattro {fuel self name} : E.held self = true → E.held name = true → ObjEntry E (proxyGetattro E fuel self name)
  | str {self} : E.held self = true → ObjEntry E (proxyText E self "__str__")
  | repr {self} : E.held self = true → ObjEntry E (proxyText E self "__repr__")
  | call {fuel self args kwds} : E.held self = true → E.held args = true → HeldPtr E kwds → ObjEntry E (proxyCall E fuel self args kwds)
  /-- `UNOP`: neg, pos, abs, invert. -/
  | unary {fuel self} (op : String) : E.held self = true → ObjEntry E (check1 E fuel self (E.const op) fun w => api E (.special op) [w])
  /-- `UNOP`: int, float. -/
  | number {fuel self} (op : String) : E.held self = true → ObjEntry E (check1 E fuel self (E.const op) (callNumber E op))
  /-- `BINOP`. -/
  | binary {fuel self other} (op rop : String) : E.held self = true → E.held other = true →
      ObjEntry E (check2 E fuel self other (E.const op) (E.const rop) fun a b => api E (.binary op) [a, b])
  /-- `INPLACE`, except pow. -/
  | inplace {fuel self other} (op : String) : E.held self = true → E.held other = true →
      ObjEntry E (check2i E fuel self other (E.const op) fun a b => api E (.inplace op) [a, b])
  | ipow {fuel self other} : E.held self = true → E.held other = true →
      ObjEntry E (check2i E fuel self other (E.const "__ipow__") (callIpow E))
  | pow {fuel self other modulus} : E.held self = true → E.held other = true → HeldPtr E modulus →
      ObjEntry E (proxyPow E fuel self other modulus)
  | lengthHint {self} : E.held self = true → ObjEntry E (proxyLengthHint E self)
  | getitem {fuel self key} : E.held self = true → E.held key = true → ObjEntry E (proxyGetitem E fuel self key)
  | igetitem {fuel self i} : E.held self = true → ObjEntry E (proxyIgetitem E fuel self i)
  | getChecker {arg} : E.held arg = true → ObjEntry E (getChecker E arg)
  | getObject {arg} : E.held arg = true → ObjEntry E (getObject E arg)

/-- Functions returning an int, negative for failure; `proxy_hash`, for which only -1 means failure, is
treated separately. -/
inductive IntEntry (E : Env) : C Int → Prop
  /-- The slot `mp_ass_subscript` of checkers, for `checker[object] = name`. -/
  | checkInt {self object name} : E.held self = true → E.held object = true → E.held name = true →
      IntEntry E (checkInt E self object (some name))
  | init {self getperms setperms} : E.held self = true → E.held getperms = true → HeldPtr E setperms →
      IntEntry E (checkerInit E self getperms setperms)
  | clear {self} : E.held self = true → IntEntry E (checkerClear E self)
  | proxyClear {self checker} : E.held self = true → IntEntry E (proxyClear E self checker)
  | setattro {self name value} : E.held self = true → E.held name = true → HeldPtr E value →
      IntEntry E (proxySetattro E self name value)
  | bool {self} : E.held self = true → IntEntry E (proxyBool E self)
  | length {self} : E.held self = true → IntEntry E (proxyLength E self)
  | contains {self value} : E.held self = true → E.held value = true → IntEntry E (proxyContains E self value)
  | setitem {self key value} : E.held self = true → E.held key = true → HeldPtr E value →
      IntEntry E (proxySetitem E self key value)
  | isetitem {self i value} : E.held self = true → HeldPtr E value → IntEntry E (proxyIsetitem E self i value)

end ZS.CM
