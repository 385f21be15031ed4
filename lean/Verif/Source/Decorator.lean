import Verif.Model.PyCode

/-!
# The functions of decorator.py

Written by tools/pysource.py from the text of the file; do not edit.  `_loops` are the
module-level `for` statements, `C.methods` the functions in the body of the class `C`.
-/

namespace ZS.Src.Decorator
open ZS ZS.PyC

/-- decorator.py:34-55 -/
def DecoratedSecurityCheckerDescriptor.__get__ : Fn where
  params := [("self", none), ("inst", none), ("cls", some (.none))]
  star := none
  dstar := none
  body :=
   [.if (.cmp .is (.loc "inst") (.none))
     [.ret (.loc "self")]
     [.assign (.loc "proxied_object") (.call (.glo "getProxiedObject") [.loc "inst"]),
      .if (.call (.glo "isinstance") [.loc "proxied_object", .glo "Proxy"])
       [.assign (.loc "checker") (.call (.glo "getChecker") [.loc "proxied_object"])]
       [.assign (.loc "checker") (.call (.glo "getattr") [.loc "proxied_object", .str "__Security_checker__", .none]),
        .if (.cmp .is (.loc "checker") (.none))
         [.assign (.loc "checker") (.call (.glo "selectChecker") [.loc "proxied_object"])]
         []],
      .assign (.loc "wrapper_checker") (.call (.glo "selectChecker") [.loc "inst"]),
      .if (.and (.cmp .is (.loc "wrapper_checker") (.none)) (.cmp .is (.loc "checker") (.none)))
       [.raise (.call (.glo "AttributeError") [.bin "%" (.str "%r has no attribute %r") (.tuple [.attr (.attr (.loc "proxied_object") "__class__") "__name__", .str "__Security_checker__"])])]
       [.if (.cmp .is (.loc "wrapper_checker") (.none))
         [.ret (.loc "checker")]
         [.if (.cmp .is (.loc "checker") (.none))
           [.ret (.loc "wrapper_checker")]
           [.ret (.call (.glo "CombinedChecker") [.loc "wrapper_checker", .loc "checker"])]]]]]

/-- decorator.py:57-58 -/
def DecoratedSecurityCheckerDescriptor.__set__ : Fn where
  params := [("self", none), ("inst", none), ("value", none)]
  star := none
  dstar := none
  body :=
   [.raise (.call (.glo "TypeError") [.str "Can't set __Security_checker__ on a decorated object"])]

/-- decorator.py:30-58 -/
def DecoratedSecurityCheckerDescriptor.methods : List (Name × Fn) :=
  [("__get__", DecoratedSecurityCheckerDescriptor.__get__),
   ("__set__", DecoratedSecurityCheckerDescriptor.__set__)]

end ZS.Src.Decorator
