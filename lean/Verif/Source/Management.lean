import Verif.Model.PyCode

/-!
# The functions of management.py

Written by tools/pysource.py from the text of the file; do not edit.  `_loops` are the
module-level `for` statements, `C.methods` the functions in the body of the class `C`.
-/

namespace ZS.Src.Management
open ZS ZS.PyC

/-- management.py:56-58 -/
def getSecurityPolicy : Fn where
  params := []
  star := none
  dstar := none
  body :=
   [.ret (.glo "_defaultPolicy")]

/-- management.py:61-72 -/
def setSecurityPolicy : Fn where
  params := [("aSecurityPolicy", none)]
  star := none
  dstar := none
  body :=
   [.assign (.tuple [.loc "last", .glo "_defaultPolicy"]) (.tuple [.glo "_defaultPolicy", .loc "aSecurityPolicy"]),
    .ret (.loc "last")]

/-- management.py:79-81 -/
def queryInteraction : Fn where
  params := []
  star := none
  dstar := none
  body :=
   [.ret (.call (.glo "getattr") [.glo "thread_local", .str "interaction", .none])]

/-- management.py:84-89 -/
def getInteraction : Fn where
  params := []
  star := none
  dstar := none
  body :=
   [.try
     [.ret (.attr (.glo "thread_local") "interaction")]
     [.handler (some (.glo "AttributeError")) none
       [.raise (.glo "NoInteraction")]]
     []
     []]

/-- management.py:101-106 -/
def newInteraction : Fn where
  params := []
  star := (some "participations")
  dstar := none
  body :=
   [.if (.cmp .isNot (.call (.glo "queryInteraction") []) (.none))
     [.raise (.call (.glo "ExistingInteraction") [.str "newInteraction called while another interaction is active."])]
     [],
    .assign (.attr (.glo "thread_local") "interaction") (.call (.call (.glo "getSecurityPolicy") []) [.star (.loc "participations")])]

/-- management.py:109-123 -/
def endInteraction : Fn where
  params := []
  star := none
  dstar := none
  body :=
   [.try
     [.assign (.attr (.glo "thread_local") "previous_interaction") (.attr (.glo "thread_local") "interaction")]
     [.handler (some (.glo "AttributeError")) none
       [.try
         [.del (.attr (.glo "thread_local") "previous_interaction")]
         [.handler (some (.glo "AttributeError")) none
           [.pass]]
         []
         []]]
     [.del (.attr (.glo "thread_local") "interaction")]
     []]

/-- management.py:126-135 -/
def restoreInteraction : Fn where
  params := []
  star := none
  dstar := none
  body :=
   [.try
     [.assign (.loc "previous") (.attr (.glo "thread_local") "previous_interaction")]
     [.handler (some (.glo "AttributeError")) none
       [.try
         [.del (.attr (.glo "thread_local") "interaction")]
         [.handler (some (.glo "AttributeError")) none
           [.pass]]
         []
         []]]
     [.assign (.attr (.glo "thread_local") "interaction") (.loc "previous")]
     []]

/-- management.py:138-159 -/
def checkPermission : Fn where
  params := [("permission", none), ("object", none), ("interaction", some (.none))]
  star := none
  dstar := none
  body :=
   [.if (.or (.cmp .is (.loc "permission") (.glo "CheckerPublic")) (.cmp .is (.loc "permission") (.none)))
     [.ret (.true)]
     [],
    .if (.cmp .is (.loc "interaction") (.none))
     [.try
       [.assign (.loc "interaction") (.attr (.glo "thread_local") "interaction")]
       [.handler (some (.glo "AttributeError")) none
         [.raise (.glo "NoInteraction")]]
       []
       []]
     [],
    .ret (.call (.attr (.loc "interaction") "checkPermission") [.loc "permission", .loc "object"])]

/-- management.py:162-164 -/
def _clear : Fn where
  params := []
  star := none
  dstar := none
  body :=
   [.assign (.glo "_defaultPolicy") (.glo "ParanoidSecurityPolicy")]

end ZS.Src.Management
