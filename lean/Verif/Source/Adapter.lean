import Verif.Model.PyCode

/-!
# The functions of adapter.py

Written by tools/pysource.py from the text of the file; do not edit.  `_loops` are the
module-level `for` statements, `C.methods` the functions in the body of the class `C`.
-/

namespace ZS.Src.Adapter
open ZS ZS.PyC

/-- adapter.py:24-45 -/
def assertLocation : Fn where
  params := [("adapter", none), ("parent", none)]
  star := none
  dstar := none
  body :=
   [.if (.not (.call (.attr (.glo "ILocation") "providedBy") [.loc "adapter"]))
     [.assign (.loc "locatable") (.call (.glo "LocationProxy") [.loc "adapter"]),
      .assign (.attr (.loc "locatable") "__parent__") (.loc "parent"),
      .ret (.loc "locatable")]
     [],
    .if (.cmp .is (.attr (.loc "adapter") "__parent__") (.none))
     [.assign (.attr (.loc "adapter") "__parent__") (.loc "parent"),
      .ret (.loc "adapter")]
     [],
    .ret (.loc "adapter")]

/-- adapter.py:66-69 -/
def LocatingTrustedAdapterFactory.__init__ : Fn where
  params := [("self", none), ("factory", none)]
  star := none
  dstar := none
  body :=
   [.assign (.attr (.loc "self") "factory") (.loc "factory"),
    .assign (.attr (.loc "self") "__name__") (.attr (.loc "factory") "__name__"),
    .assign (.attr (.loc "self") "__module__") (.attr (.loc "factory") "__module__")]

/-- adapter.py:72-73 -/
def LocatingTrustedAdapterFactory._customizeProtected : Fn where
  params := [("self", none), ("adapter", none), ("context", none)]
  star := none
  dstar := none
  body :=
   [.ret (.call (.glo "assertLocation") [.loc "adapter", .loc "context"])]

/-- adapter.py:75-78 -/
def LocatingTrustedAdapterFactory._customizeUnprotected : Fn where
  params := [("self", none), ("adapter", none), ("context", none)]
  star := none
  dstar := none
  body :=
   [.if (.and (.call (.attr (.glo "ILocation") "providedBy") [.loc "adapter"]) (.cmp .is (.attr (.loc "adapter") "__parent__") (.none)))
     [.assign (.attr (.loc "adapter") "__parent__") (.loc "context")]
     [],
    .ret (.loc "adapter")]

/-- adapter.py:80-90 -/
def LocatingTrustedAdapterFactory.__call__ : Fn where
  params := [("self", none)]
  star := (some "args")
  dstar := none
  body :=
   [.for (.loc "arg") (.loc "args")
     [.if (.cmp .isNot (.call (.glo "removeSecurityProxy") [.loc "arg"]) (.loc "arg"))
       [.assign (.loc "args") (.comp (.call (.glo "removeSecurityProxy") [.loc "x"]) "x" (.loc "args") (.true)),
        .assign (.loc "adapter") (.call (.attr (.loc "self") "factory") [.star (.loc "args")]),
        .assign (.loc "adapter") (.call (.attr (.loc "self") "_customizeProtected") [.loc "adapter", .sub (.loc "args") (.num (0))]),
        .ret (.call (.glo "ProxyFactory") [.loc "adapter"])]
       []],
    .assign (.loc "adapter") (.call (.attr (.loc "self") "factory") [.star (.loc "args")]),
    .assign (.loc "adapter") (.call (.attr (.loc "self") "_customizeUnprotected") [.loc "adapter", .sub (.loc "args") (.num (0))]),
    .ret (.loc "adapter")]

/-- adapter.py:108-109 -/
def TrustedAdapterFactory._customizeProtected : Fn where
  params := [("self", none), ("adapter", none), ("context", none)]
  star := none
  dstar := none
  body :=
   [.ret (.call (.attr (.loc "self") "_customizeUnprotected") [.loc "adapter", .loc "context"])]

/-- adapter.py:129-132 -/
def LocatingUntrustedAdapterFactory.__init__ : Fn where
  params := [("self", none), ("factory", none)]
  star := none
  dstar := none
  body :=
   [.assign (.attr (.loc "self") "factory") (.loc "factory"),
    .assign (.attr (.loc "self") "__name__") (.attr (.loc "factory") "__name__"),
    .assign (.attr (.loc "self") "__module__") (.attr (.loc "factory") "__module__")]

/-- adapter.py:134-136 -/
def LocatingUntrustedAdapterFactory.__call__ : Fn where
  params := [("self", none)]
  star := (some "args")
  dstar := none
  body :=
   [.assign (.loc "adapter") (.call (.attr (.loc "self") "factory") [.star (.loc "args")]),
    .ret (.call (.glo "assertLocation") [.loc "adapter", .sub (.loc "args") (.num (0))])]

/-- adapter.py:48-90 -/
def LocatingTrustedAdapterFactory.methods : List (Name × Fn) :=
  [("__init__", LocatingTrustedAdapterFactory.__init__),
   ("_customizeProtected", LocatingTrustedAdapterFactory._customizeProtected),
   ("_customizeUnprotected", LocatingTrustedAdapterFactory._customizeUnprotected),
   ("__call__", LocatingTrustedAdapterFactory.__call__)]

/-- adapter.py:93-109 -/
def TrustedAdapterFactory.methods : List (Name × Fn) :=
  [("_customizeProtected", TrustedAdapterFactory._customizeProtected)]

/-- adapter.py:112-136 -/
def LocatingUntrustedAdapterFactory.methods : List (Name × Fn) :=
  [("__init__", LocatingUntrustedAdapterFactory.__init__),
   ("__call__", LocatingUntrustedAdapterFactory.__call__)]

end ZS.Src.Adapter
