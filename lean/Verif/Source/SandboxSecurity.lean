import Verif.Model.PyCode

/-!
# The functions of examples/sandbox_security.py

Written by tools/pysource.py from the text of the file; do not edit.  `_loops` are the
module-level `for` statements, `C.methods` the functions in the body of the class `C`.
-/

namespace ZS.Src.SandboxSecurity
open ZS ZS.PyC

/-- examples/sandbox_security.py:52-52 -/
def NoSetAttr : Fn where
  params := [("name", none)]
  star := none
  dstar := none
  body :=
   [.ret (.glo "NotAllowed")]

/-- examples/sandbox_security.py:84-105 -/
def SimulationSecurityPolicy.checkPermission : Fn where
  params := [("self", none), ("permission", none), ("object", none)]
  star := none
  dstar := none
  body :=
   [.assign (.loc "home") (.call (.attr (.loc "object") "getHome") []),
    .assign (.loc "db") (.call (.glo "getattr") [.glo "SimulationSecurityDatabase", .call (.attr (.loc "home") "getId") [], .none]),
    .if (.cmp .is (.loc "db") (.none))
     [.ret (.false)]
     [],
    .assign (.loc "allowed") (.call (.attr (.loc "db") "get") [.str "any", .tuple []]),
    .if (.or (.cmp .isIn (.loc "permission") (.loc "allowed")) (.cmp .isIn (.glo "ALL") (.loc "allowed")))
     [.ret (.true)]
     [],
    .if (.not (.attr (.loc "self") "participations"))
     [.ret (.false)]
     [],
    .for (.loc "participation") (.attr (.loc "self") "participations")
     [.assign (.loc "token") (.call (.attr (.attr (.loc "participation") "principal") "getAuthenticationToken") []),
      .assign (.loc "allowed") (.call (.attr (.loc "db") "get") [.loc "token", .tuple []]),
      .if (.cmp .notIn (.loc "permission") (.loc "allowed"))
       [.ret (.false)]
       []],
    .ret (.true)]

/-- examples/sandbox_security.py:115-117 -/
def AgentParticipation.__init__ : Fn where
  params := [("self", none), ("agent", none)]
  star := none
  dstar := none
  body :=
   [.assign (.attr (.loc "self") "principal") (.loc "agent"),
    .assign (.attr (.loc "self") "interaction") (.none)]

/-- examples/sandbox_security.py:120-130 -/
def PermissionMapChecker : Fn where
  params := [("permissions_map", some (.none)), ("set_permissions", some (.none))]
  star := none
  dstar := none
  body :=
   [.if (.cmp .is (.loc "permissions_map") (.none))
     [.assign (.loc "permissions_map") (.dict [])]
     [],
    .if (.cmp .is (.loc "set_permissions") (.none))
     [.assign (.loc "set_permissions") (.dict [])]
     [],
    .assign (.loc "res") (.dict []),
    .for (.tuple [.loc "key", .loc "value"]) (.call (.attr (.loc "permissions_map") "items") [])
     [.for (.loc "method") (.loc "value")
       [.assign (.sub (.loc "res") (.loc "method")) (.loc "key")]],
    .ret (.call (.attr (.glo "checker") "Checker") [.loc "res", .loc "set_permissions"])]

/-- examples/sandbox_security.py:169-177 -/
def wire_security.addAgent : Fn where
  params := [("self", none), ("agent", none)]
  star := none
  dstar := none
  body :=
   [.if (.and (.cmp .notIn (.call (.attr (.loc "agent") "getId") []) (.attr (.loc "self") "_agents")) (.call (.attr (.attr (.glo "sandbox") "IAgent") "providedBy") [.loc "agent"]))
     [.assign (.sub (.attr (.loc "self") "_agents") (.call (.attr (.loc "agent") "getId") [])) (.loc "agent"),
      .assign (.loc "agentChecker") (.call (.attr (.glo "checker") "selectChecker") [.loc "self"]),
      .assign (.loc "wrapped_home") (.call (.attr (.loc "agentChecker") "proxy") [.loc "self"]),
      .expr (.call (.attr (.loc "agent") "setHome") [.loc "wrapped_home"])]
     [.raise (.call (.attr (.glo "sandbox") "SandboxError") [.bin "%" (.str "couldn't add agent %s") (.loc "agent")])]]

/-- examples/sandbox_security.py:181-182 -/
def wire_security.setupAgent : Fn where
  params := [("self", none), ("agent", none)]
  star := none
  dstar := none
  body :=
   [.expr (.call (.attr (.glo "management") "newInteraction") [.call (.glo "AgentParticipation") [.loc "agent"]])]

/-- examples/sandbox_security.py:186-187 -/
def wire_security.teardownAgent : Fn where
  params := [("self", none), ("agent", none)]
  star := none
  dstar := none
  body :=
   [.expr (.call (.attr (.glo "management") "endInteraction") [])]

/-- examples/sandbox_security.py:191-198 -/
def wire_security.GreenerPastures : Fn where
  params := [("agent", none)]
  star := none
  dstar := none
  body :=
   [.assign (.loc "random") (.glo "import random"),
    .assign (.loc "_homes") (.attr (.glo "sandbox") "_homes"),
    .assign (.loc "possible_homes") (.call (.attr (.loc "_homes") "keys") []),
    .expr (.call (.attr (.loc "possible_homes") "remove") [.call (.attr (.call (.attr (.loc "agent") "getHome") []) "getId") []]),
    .assign (.loc "new_home") (.call (.attr (.loc "_homes") "get") [.call (.attr (.loc "random") "choice") [.loc "possible_homes"]]),
    .ret (.call (.attr (.call (.attr (.glo "checker") "selectChecker") [.loc "new_home"]) "proxy") [.loc "new_home"])]

/-- examples/sandbox_security.py:160-200 -/
def wire_security : Fn where
  params := []
  star := none
  dstar := none
  body :=
   [.expr (.call (.attr (.glo "management") "setSecurityPolicy") [.glo "SimulationSecurityPolicy"]),
    .expr (.call (.attr (.glo "checker") "defineChecker") [.attr (.glo "sandbox") "Sandbox", .glo "sandbox_checker"]),
    .expr (.call (.attr (.glo "checker") "defineChecker") [.attr (.glo "sandbox") "TimeService", .glo "time_service_checker"]),
    .expr (.call (.attr (.glo "checker") "defineChecker") [.attr (.glo "sandbox") "AgentDiscoveryService", .glo "agent_service_checker"]),
    .expr (.call (.attr (.glo "checker") "defineChecker") [.attr (.glo "sandbox") "HomeDiscoveryService", .glo "home_service_checker"]),
    .fdef "addAgent" "wire_security.addAgent",
    .assign (.attr (.attr (.glo "sandbox") "Sandbox") "addAgent") (.loc "addAgent"),
    .fdef "setupAgent" "wire_security.setupAgent",
    .assign (.attr (.attr (.glo "sandbox") "TimeGenerator") "setupAgent") (.loc "setupAgent"),
    .fdef "teardownAgent" "wire_security.teardownAgent",
    .assign (.attr (.attr (.glo "sandbox") "TimeGenerator") "teardownAgent") (.loc "teardownAgent"),
    .fdef "GreenerPastures" "wire_security.GreenerPastures",
    .assign (.attr (.glo "sandbox") "GreenerPastures") (.loc "GreenerPastures")]

/-- examples/sandbox_security.py:14-205 -/
def _module : List Stmt :=
  [.assign (.glo "NotAllowed") (.str "Not Allowed"),
   .assign (.glo "Public") (.attr (.glo "checker") "CheckerPublic"),
   .assign (.glo "TransportAgent") (.str "Transport Agent"),
   .assign (.glo "AccessServices") (.str "Access Services"),
   .assign (.glo "AccessAgents") (.str "Access Agents"),
   .assign (.glo "AccessTimeService") (.str "Access Time Services"),
   .assign (.glo "AccessAgentService") (.str "Access Agent Service"),
   .assign (.glo "AccessHomeService") (.str "Access Home Service"),
   .assign (.glo "AddAgent") (.str "Add Agent"),
   .assign (.glo "ALL") (.str "All"),
   .assign (.glo "sandbox_security") (.dict [.tuple [.glo "AccessServices", .list [.str "getService", .str "addService", .str "getServiceIds"]], .tuple [.glo "AccessAgents", .list [.str "getAgentsIds", .str "getAgents"]], .tuple [.glo "AddAgent", .list [.str "addAgent"]], .tuple [.glo "TransportAgent", .list [.str "transportAgent"]], .tuple [.glo "Public", .list [.str "getId", .str "getHome"]]]),
   .assign (.glo "sandbox_checker") (.call (.glo "PermissionMapChecker") [.glo "sandbox_security"]),
   .assign (.glo "tservice_security") (.dict [.tuple [.glo "AccessTimeService", .list [.str "getTime"]]]),
   .assign (.glo "time_service_checker") (.call (.glo "PermissionMapChecker") [.glo "tservice_security"]),
   .assign (.glo "hservice_security") (.dict [.tuple [.glo "AccessHomeService", .list [.str "getAvailableHomes"]]]),
   .assign (.glo "home_service_checker") (.call (.glo "PermissionMapChecker") [.glo "hservice_security"]),
   .assign (.glo "aservice_security") (.dict [.tuple [.glo "AccessAgentService", .list [.str "getLocalAgents"]]]),
   .assign (.glo "agent_service_checker") (.call (.glo "PermissionMapChecker") [.glo "aservice_security"]),
   .if (.cmp .eq (.glo "__name__") (.str "__main__"))
    [.expr (.call (.glo "wire_security") []),
     .expr (.call (.attr (.glo "sandbox") "main") [])]
    []]

/-- examples/sandbox_security.py:55-75 -/
def SimulationSecurityDatabase._body : List Stmt :=
  [.assign (.glo "origin") (.dict [.tuple [.str "any", .list [.glo "ALL"]]]),
   .assign (.glo "jail") (.dict [.tuple [.str "norse legend", .list [.glo "TransportAgent", .glo "AccessServices", .glo "AccessAgentService", .glo "AccessHomeService", .glo "TransportAgent", .glo "AccessAgents"]], .tuple [.str "any", .list [.glo "AccessTimeService", .glo "AddAgent"]]]),
   .assign (.glo "valhalla") (.dict [.tuple [.str "norse legend", .list [.glo "AddAgent"]], .tuple [.str "any", .list [.glo "AccessServices", .glo "AccessTimeService", .glo "AccessAgentService", .glo "AccessHomeService", .glo "TransportAgent", .glo "AccessAgents"]]])]

/-- examples/sandbox_security.py:78-105 -/
def SimulationSecurityPolicy.methods : List (Name × Fn) :=
  [("checkPermission", SimulationSecurityPolicy.checkPermission)]

/-- examples/sandbox_security.py:109-117 -/
def AgentParticipation.methods : List (Name × Fn) :=
  [("__init__", AgentParticipation.__init__)]

end ZS.Src.SandboxSecurity
