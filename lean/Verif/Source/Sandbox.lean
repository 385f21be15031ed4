import Verif.Model.PyCode

/-!
# The functions of examples/sandbox.py

Written by tools/pysource.py from the text of the file; do not edit.  `_loops` are the
module-level `for` statements, `C.methods` the functions in the body of the class `C`.
-/

namespace ZS.Src.Sandbox
open ZS ZS.PyC

/-- examples/sandbox.py:31-32 -/
def IAgent.action : Fn where
  params := []
  star := none
  dstar := none
  body :=
   []

/-- examples/sandbox.py:34-35 -/
def IAgent.setHome : Fn where
  params := [("home", none)]
  star := none
  dstar := none
  body :=
   []

/-- examples/sandbox.py:37-38 -/
def IAgent.getHome : Fn where
  params := []
  star := none
  dstar := none
  body :=
   []

/-- examples/sandbox.py:40-41 -/
def IAgent.getAuthenticationToken : Fn where
  params := []
  star := none
  dstar := none
  body :=
   []

/-- examples/sandbox.py:55-56 -/
def ISandbox.getService : Fn where
  params := [("service_id", none)]
  star := none
  dstar := none
  body :=
   []

/-- examples/sandbox.py:58-59 -/
def ISandbox.getAgents : Fn where
  params := []
  star := none
  dstar := none
  body :=
   []

/-- examples/sandbox.py:61-62 -/
def ISandbox.addAgent : Fn where
  params := [("agent", none)]
  star := none
  dstar := none
  body :=
   []

/-- examples/sandbox.py:64-65 -/
def ISandbox.transportAgent : Fn where
  params := [("agent", none), ("destination", none)]
  star := none
  dstar := none
  body :=
   []

/-- examples/sandbox.py:76-77 -/
def Identity.__init__ : Fn where
  params := [("self", none), ("id", none)]
  star := (some "args")
  dstar := (some "kw")
  body :=
   [.assign (.attr (.loc "self") "id") (.loc "id")]

/-- examples/sandbox.py:79-80 -/
def Identity.getId : Fn where
  params := [("self", none)]
  star := none
  dstar := none
  body :=
   [.ret (.attr (.loc "self") "id")]

/-- examples/sandbox.py:82-83 -/
def Identity.__str__ : Fn where
  params := [("self", none)]
  star := none
  dstar := none
  body :=
   [.ret (.fstr [.str "<", .fmt "" (.call (.glo "str") [.attr (.attr (.loc "self") "__class__") "__name__"]), .str "> ", .fmt "" (.call (.glo "str") [.attr (.loc "self") "id"])])]

/-- examples/sandbox.py:91-96 -/
def Agent.__init__ : Fn where
  params := [("self", none), ("id", none), ("home", none), ("auth_token", none), ("action", none)]
  star := none
  dstar := none
  body :=
   [.assign (.attr (.loc "self") "id") (.loc "id"),
    .assign (.attr (.loc "self") "auth_token") (.loc "auth_token"),
    .assign (.attr (.loc "self") "home") (.loc "home"),
    .assign (.attr (.loc "self") "_action") (.loc "action")]

/-- examples/sandbox.py:98-100 -/
def Agent.action : Fn where
  params := [("self", none)]
  star := none
  dstar := none
  body :=
   [.expr (.call (.attr (.loc "self") "_action") [.loc "self", .call (.attr (.loc "self") "getHome") []])]

/-- examples/sandbox.py:102-104 -/
def Agent.setHome : Fn where
  params := [("self", none), ("home", none)]
  star := none
  dstar := none
  body :=
   [.assign (.attr (.loc "self") "home") (.loc "home")]

/-- examples/sandbox.py:106-108 -/
def Agent.getHome : Fn where
  params := [("self", none)]
  star := none
  dstar := none
  body :=
   [.ret (.attr (.loc "self") "home")]

/-- examples/sandbox.py:110-112 -/
def Agent.getAuthenticationToken : Fn where
  params := [("self", none)]
  star := none
  dstar := none
  body :=
   [.ret (.attr (.loc "self") "auth_token")]

/-- examples/sandbox.py:121-127 -/
def Sandbox.__init__ : Fn where
  params := [("self", none), ("id", none), ("service_factories", none)]
  star := none
  dstar := none
  body :=
   [.assign (.attr (.loc "self") "id") (.loc "id"),
    .assign (.attr (.loc "self") "_services") (.dict []),
    .assign (.attr (.loc "self") "_agents") (.dict []),
    .for (.loc "sf") (.loc "service_factories")
     [.expr (.call (.attr (.loc "self") "addService") [.call (.loc "sf") []])]]

/-- examples/sandbox.py:129-130 -/
def Sandbox.getAgentIds : Fn where
  params := [("self", none)]
  star := none
  dstar := none
  body :=
   [.ret (.call (.attr (.attr (.loc "self") "_agents") "keys") [])]

/-- examples/sandbox.py:132-133 -/
def Sandbox.getAgents : Fn where
  params := [("self", none)]
  star := none
  dstar := none
  body :=
   [.ret (.call (.attr (.attr (.loc "self") "_agents") "values") [])]

/-- examples/sandbox.py:135-136 -/
def Sandbox.getServiceIds : Fn where
  params := [("self", none)]
  star := none
  dstar := none
  body :=
   [.ret (.call (.attr (.attr (.loc "self") "_services") "keys") [])]

/-- examples/sandbox.py:138-139 -/
def Sandbox.getService : Fn where
  params := [("self", none), ("sid", none)]
  star := none
  dstar := none
  body :=
   [.ret (.call (.attr (.attr (.loc "self") "_services") "get") [.loc "sid"])]

/-- examples/sandbox.py:141-142 -/
def Sandbox.getHome : Fn where
  params := [("self", none)]
  star := none
  dstar := none
  body :=
   [.ret (.loc "self")]

/-- examples/sandbox.py:144-150 -/
def Sandbox.addAgent : Fn where
  params := [("self", none), ("agent", none)]
  star := none
  dstar := none
  body :=
   [.if (.and (.cmp .notIn (.call (.attr (.loc "agent") "getId") []) (.attr (.loc "self") "_agents")) (.call (.attr (.glo "IAgent") "providedBy") [.loc "agent"]))
     [.assign (.sub (.attr (.loc "self") "_agents") (.call (.attr (.loc "agent") "getId") [])) (.loc "agent"),
      .expr (.call (.attr (.loc "agent") "setHome") [.loc "self"])]
     [.raise (.call (.glo "SandboxError") [.bin "%" (.str "couldn't add agent %s") (.loc "agent")])]]

/-- examples/sandbox.py:152-159 -/
def Sandbox.addService : Fn where
  params := [("self", none), ("service", none)]
  star := none
  dstar := none
  body :=
   [.if (.and (.not (.cmp .isIn (.call (.attr (.loc "service") "getId") []) (.attr (.loc "self") "_services"))) (.call (.attr (.glo "IService") "providedBy") [.loc "service"]))
     [.assign (.sub (.attr (.loc "self") "_services") (.call (.attr (.loc "service") "getId") [])) (.loc "service"),
      .expr (.call (.attr (.loc "service") "setHome") [.loc "self"])]
     [.raise (.call (.glo "SandboxError") [.bin "%" (.str "couldn't add service %s") (.loc "service")])]]

/-- examples/sandbox.py:161-170 -/
def Sandbox.transportAgent : Fn where
  params := [("self", none), ("agent", none), ("destination", none)]
  star := none
  dstar := none
  body :=
   [.if (.and (.cmp .isIn (.call (.attr (.loc "agent") "getId") []) (.attr (.loc "self") "_agents")) (.and (.cmp .isNot (.loc "destination") (.loc "self")) (.call (.attr (.glo "ISandbox") "providedBy") [.loc "destination"])))
     [.expr (.call (.attr (.loc "destination") "addAgent") [.loc "agent"]),
      .del (.sub (.attr (.loc "self") "_agents") (.call (.attr (.loc "agent") "getId") []))]
     [.raise (.call (.glo "SandboxError") [.call (.attr (.str "couldn't transport agent {} to {}") "format") [.loc "agent", .loc "destination"]])]]

/-- examples/sandbox.py:175-176 -/
def Service.getId : Fn where
  params := [("self", none)]
  star := none
  dstar := none
  body :=
   [.ret (.attr (.attr (.loc "self") "__class__") "__name__")]

/-- examples/sandbox.py:178-179 -/
def Service.setHome : Fn where
  params := [("self", none), ("home", none)]
  star := none
  dstar := none
  body :=
   [.assign (.attr (.loc "self") "_home") (.loc "home")]

/-- examples/sandbox.py:181-182 -/
def Service.getHome : Fn where
  params := [("self", none)]
  star := none
  dstar := none
  body :=
   [.ret (.call (.glo "getattr") [.loc "self", .str "_home"])]

/-- examples/sandbox.py:190-191 -/
def HomeDiscoveryService.getAvailableHomes : Fn where
  params := [("self", none)]
  star := none
  dstar := none
  body :=
   [.ret (.call (.attr (.glo "_homes") "keys") [])]

/-- examples/sandbox.py:199-200 -/
def AgentDiscoveryService.getLocalAgents : Fn where
  params := [("self", none), ("home", none)]
  star := none
  dstar := none
  body :=
   [.ret (.call (.attr (.loc "home") "getAgents") [])]

/-- examples/sandbox.py:208-209 -/
def TimeService.getTime : Fn where
  params := [("self", none)]
  star := none
  dstar := none
  body :=
   [.ret (.call (.attr (.glo "time") "time") [])]

/-- examples/sandbox.py:219-221 -/
def action_find_homes : Fn where
  params := [("agent", none), ("home", none)]
  star := none
  dstar := none
  body :=
   [.assign (.loc "home_service") (.call (.attr (.loc "home") "getService") [.str "HomeDiscoveryService"]),
    .ret (.call (.attr (.loc "home_service") "getAvailableHomes") [])]

/-- examples/sandbox.py:224-226 -/
def action_find_neighbors : Fn where
  params := [("agent", none), ("home", none)]
  star := none
  dstar := none
  body :=
   [.assign (.loc "agent_service") (.call (.attr (.loc "home") "getService") [.str "AgentDiscoveryService"]),
    .ret (.call (.attr (.loc "agent_service") "getLocalAgents") [.loc "home"])]

/-- examples/sandbox.py:229-231 -/
def action_find_time : Fn where
  params := [("agent", none), ("home", none)]
  star := none
  dstar := none
  body :=
   [.assign (.loc "time_service") (.call (.attr (.loc "home") "getService") [.str "TimeService"]),
    .ret (.call (.attr (.loc "time_service") "getTime") [])]

/-- examples/sandbox.py:243-244 -/
def TimeGenerator.setupAgent : Fn where
  params := [("self", none), ("agent", none)]
  star := none
  dstar := none
  body :=
   [.pass]

/-- examples/sandbox.py:246-247 -/
def TimeGenerator.teardownAgent : Fn where
  params := [("self", none), ("agent", none)]
  star := none
  dstar := none
  body :=
   [.pass]

/-- examples/sandbox.py:249-281 -/
def TimeGenerator.turn : Fn where
  params := [("self", none)]
  star := none
  dstar := none
  body :=
   [.for (.loc "h") (.call (.attr (.glo "_homes") "values") [])
     [.assign (.loc "agents") (.call (.attr (.loc "h") "getAgents") []),
      .for (.loc "a") (.loc "agents")
       [.expr (.call (.attr (.loc "self") "setupAgent") [.loc "a"]),
        .try
         [.expr (.call (.attr (.loc "a") "action") [])]
         [.handler (some (.glo "Exception")) (some "e")
           [.expr (.call (.glo "print") [.str "-- Exception --"]),
            .expr (.call (.glo "print") [.bin "%" (.str "\"%s\" in \"%s\" not allow to \"%s\"") (.tuple [.loc "a", .loc "h", .attr (.attr (.loc "a") "_action") "__name__"])]),
            .expr (.call (.glo "print") [.loc "e"]),
            .expr (.call (.glo "print") [])]]
         []
         [],
        .expr (.call (.attr (.loc "self") "teardownAgent") [.loc "a"])],
      .assign (.loc "agents") (.call (.glo "filter") [.glo "WanderLust", .loc "agents"]),
      .for (.loc "a") (.loc "agents")
       [.expr (.call (.attr (.loc "self") "setupAgent") [.loc "a"]),
        .try
         [.assign (.loc "home") (.call (.attr (.loc "a") "getHome") []),
          .assign (.loc "new_home") (.call (.glo "GreenerPastures") [.loc "a"]),
          .expr (.call (.attr (.loc "home") "transportAgent") [.loc "a", .loc "new_home"])]
         [.handler (some (.glo "Exception")) (some "e")
           [.expr (.call (.glo "print") [.str "-- Exception --"]),
            .expr (.call (.glo "print") [.bin "%" (.str "moving \"%s\" from \"%s\" to \"%s\"") (.tuple [.loc "a", .loc "h", .call (.glo "repr") [.loc "new_home"]])]),
            .expr (.call (.glo "print") [.loc "e"]),
            .expr (.call (.glo "print") [])]]
         []
         [],
        .expr (.call (.attr (.loc "self") "teardownAgent") [.loc "a"])]]]

/-- examples/sandbox.py:284-287 -/
def WanderLust : Fn where
  params := [("agent", none)]
  star := none
  dstar := none
  body :=
   [.if (.cmp .le (.call (.glo "int") [.bin "*" (.call (.attr (.glo "random") "random") []) (.num (100))]) (.num (30)))
     [.ret (.num (1))]
     []]

/-- examples/sandbox.py:290-295 -/
def GreenerPastures : Fn where
  params := [("agent", none)]
  star := none
  dstar := none
  body :=
   [.assign (.loc "possible_homes") (.call (.attr (.glo "_homes") "keys") []),
    .expr (.call (.attr (.loc "possible_homes") "remove") [.call (.attr (.call (.attr (.loc "agent") "getHome") []) "getId") []]),
    .ret (.call (.attr (.glo "_homes") "get") [.call (.attr (.glo "random") "choice") [.loc "possible_homes"]])]

/-- examples/sandbox.py:328-336 -/
def main : Fn where
  params := []
  star := none
  dstar := none
  body :=
   [.assign (.loc "world") (.call (.glo "TimeGenerator") []),
    .for (.loc "x") (.call (.glo "range") [.num (5)])
     [.expr (.call (.glo "print") [.str "world turning"]),
      .expr (.call (.attr (.loc "world") "turn") [])],
    .for (.loc "h") (.call (.attr (.glo "_homes") "values") [])
     [.expr (.call (.glo "print") [.call (.attr (.loc "h") "getId") [], .call (.attr (.loc "h") "getAgentIds") []])]]

/-- examples/sandbox.py:311-325 -/
def _loops : Fn where
  params := []
  star := none
  dstar := none
  body :=
   [.for (.loc "h") (.glo "all_homes")
     [.assign (.sub (.glo "_homes") (.call (.attr (.loc "h") "getId") [])) (.loc "h")],
    .for (.loc "a") (.glo "agents")
     [.expr (.call (.attr (.glo "origin") "addAgent") [.loc "a"])]]

/-- examples/sandbox.py:212-325 -/
def _world : Fn where
  params := []
  star := none
  dstar := none
  body :=
   [.assign (.loc "default_service_factories") (.tuple [.glo "HomeDiscoveryService", .glo "AgentDiscoveryService", .glo "TimeService"]),
    .assign (.loc "all_homes") (.tuple [.call (.glo "Sandbox") [.str "jail", .loc "default_service_factories"], .call (.glo "Sandbox") [.str "origin", .loc "default_service_factories"], .call (.glo "Sandbox") [.str "valhalla", .loc "default_service_factories"]]),
    .assign (.loc "origin") (.sub (.loc "all_homes") (.num (1))),
    .for (.loc "h") (.loc "all_homes")
     [.assign (.sub (.glo "_homes") (.call (.attr (.loc "h") "getId") [])) (.loc "h")],
    .assign (.loc "agents") (.list [.call (.glo "Agent") [.str "odin", .none, .str "norse legend", .glo "action_find_time"], .call (.glo "Agent") [.str "loki", .none, .str "norse legend", .glo "action_find_neighbors"], .call (.glo "Agent") [.str "thor", .none, .str "norse legend", .glo "action_find_homes"], .call (.glo "Agent") [.str "thucydides", .none, .str "greek men", .glo "action_find_time"], .call (.glo "Agent") [.str "archimedes", .none, .str "greek men", .glo "action_find_neighbors"], .call (.glo "Agent") [.str "prometheus", .none, .str "greek men", .glo "action_find_homes"]]),
    .for (.loc "a") (.loc "agents")
     [.expr (.call (.attr (.loc "origin") "addAgent") [.loc "a"])]]

/-- examples/sandbox.py:23-41 -/
def IAgent.methods : List (Name × Fn) :=
  [("action", IAgent.action),
   ("setHome", IAgent.setHome),
   ("getHome", IAgent.getHome),
   ("getAuthenticationToken", IAgent.getAuthenticationToken)]

/-- examples/sandbox.py:52-65 -/
def ISandbox.methods : List (Name × Fn) :=
  [("getService", ISandbox.getService),
   ("getAgents", ISandbox.getAgents),
   ("addAgent", ISandbox.addAgent),
   ("transportAgent", ISandbox.transportAgent)]

/-- examples/sandbox.py:73-85 -/
def Identity.methods : List (Name × Fn) :=
  [("__init__", Identity.__init__),
   ("getId", Identity.getId),
   ("__str__", Identity.__str__)]

/-- examples/sandbox.py:89-112 -/
def Agent.methods : List (Name × Fn) :=
  [("__init__", Agent.__init__),
   ("action", Agent.action),
   ("setHome", Agent.setHome),
   ("getHome", Agent.getHome),
   ("getAuthenticationToken", Agent.getAuthenticationToken)]

/-- examples/sandbox.py:116-170 -/
def Sandbox.methods : List (Name × Fn) :=
  [("__init__", Sandbox.__init__),
   ("getAgentIds", Sandbox.getAgentIds),
   ("getAgents", Sandbox.getAgents),
   ("getServiceIds", Sandbox.getServiceIds),
   ("getService", Sandbox.getService),
   ("getHome", Sandbox.getHome),
   ("addAgent", Sandbox.addAgent),
   ("addService", Sandbox.addService),
   ("transportAgent", Sandbox.transportAgent)]

/-- examples/sandbox.py:174-182 -/
def Service.methods : List (Name × Fn) :=
  [("getId", Service.getId),
   ("setHome", Service.setHome),
   ("getHome", Service.getHome)]

/-- examples/sandbox.py:185-191 -/
def HomeDiscoveryService.methods : List (Name × Fn) :=
  [("getAvailableHomes", HomeDiscoveryService.getAvailableHomes)]

/-- examples/sandbox.py:194-200 -/
def AgentDiscoveryService.methods : List (Name × Fn) :=
  [("getLocalAgents", AgentDiscoveryService.getLocalAgents)]

/-- examples/sandbox.py:203-209 -/
def TimeService.methods : List (Name × Fn) :=
  [("getTime", TimeService.getTime)]

/-- examples/sandbox.py:234-281 -/
def TimeGenerator.methods : List (Name × Fn) :=
  [("setupAgent", TimeGenerator.setupAgent),
   ("teardownAgent", TimeGenerator.teardownAgent),
   ("turn", TimeGenerator.turn)]

end ZS.Src.Sandbox
