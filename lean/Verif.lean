import Verif.Model.Access
import Verif.Model.Management
import Verif.Model.Protect
import Verif.Props.Checks
import Verif.Props.Combined
import Verif.Props.Select
import Verif.Props.Registry
import Verif.Props.Protect
import Verif.Props.Management
import Verif.Props.Defaults
import Verif.Props.Mediation
import Verif.Props.Ops
import Verif.Props.Agree
import Verif.Props.Confine
import Verif.Props.Paranoid
import Verif.Props.Access
import Verif.Props.Deco
import Verif.Props.Adapter
import Verif.Props.Testing
import Verif.Props.Watching
import Verif.Props.Sandbox
import Verif.Props.Permission
import Verif.Props.Threads
import Verif.Props.Meta
import Verif.Props.Zcml
import Verif.Props.Ghost
import Verif.Model.CMem
import Verif.Model.CCode
import Verif.Spec.CMem
import Verif.Spec.CEntries
import Verif.Lemmas.CMem
import Verif.Lemmas.CGood
import Verif.Lemmas.CFields
import Verif.Props.CMem
import Verif.Spec.Secret
import Verif.Lemmas.Tracks
import Verif.Props.Secret
import Verif.Model.Simulation
import Verif.Spec.Simulation
import Verif.Props.Simulation
import Verif.Spec.CRefine
import Verif.Spec.CSlots
import Verif.Lemmas.CRefine
import Verif.Lemmas.CRefineChecker
import Verif.Lemmas.CRefineProxy
import Verif.Props.CRefine
import Verif.Spec.CMediation
import Verif.Lemmas.CLogs
import Verif.Lemmas.CMediation
import Verif.Props.CMediation
import Verif.Spec.Deploy
import Verif.Spec.DeployPy
import Verif.Props.Deploy
import Verif.Props.DeployPy
import Verif.Model.Gc
import Verif.Spec.Gc
import Verif.Lemmas.Gc
import Verif.Props.Gc
import Verif.Model.File
import Verif.Spec.File
import Verif.Lemmas.File
import Verif.Lemmas.Conflicts
import Verif.Lemmas.Load
import Verif.Lemmas.Carry
import Verif.Props.File
import Verif.Props.Operands
import Verif.Model.Pickle
import Verif.Props.Pickle
import Verif.Model.Moment
import Verif.Props.Moment
import Verif.Model.Import
import Verif.Lemmas.Import
import Verif.Lemmas.ImportSound
import Verif.Lemmas.ImportOk
import Verif.Lemmas.ImportAll
import Verif.Spec.Import
import Verif.Props.Import
import Verif.Props.ImportNames
import Verif.Model.Slots
import Verif.Spec.Slots
import Verif.Props.Slots
import Verif.Spec.CSession
import Verif.Props.CSession
import Verif.Model.PyCode
import Verif.Model.PyHost
import Verif.Source.Checker
import Verif.Source.Proxy
import Verif.Source.Management
import Verif.Source.Simplepolicies
import Verif.Source.Decorator
import Verif.Lemmas.PyRun
import Verif.Props.SourceChecker
import Verif.Props.SourceChecker2
import Verif.Props.SourceManagement
import Verif.Props.SourceProxy
import Verif.Props.SourceOps
import Verif.Props.SourceSession
import Verif.Props.SourceExamples
import Verif.Source.Protectclass
import Verif.Source.Metaconfigure
import Verif.Source.Zcml
import Verif.Source.Permission
import Verif.Model.PyDecl
import Verif.Model.PyRead
import Verif.Lemmas.PyDeclRun
import Verif.Props.SourceDecl
import Verif.Props.SourceDeclExamples
import Verif.Lemmas.PyReadRun
import Verif.Props.SourceMeta
import Verif.Props.SourceConfig
import Verif.Props.SourceInit
import Verif.Props.SourceConfigExamples
import Verif.Model.PyZcml
import Verif.Props.SourcePermission
import Verif.Props.SourceZcml
import Verif.Props.SourceResolve
import Verif.Props.SourceFile
import Verif.Props.SourceShipped
import Verif.Model.PyModule
import Verif.Lemmas.KernelRfl
import Verif.Lemmas.PyModule
import Verif.Lemmas.PyModuleRun
import Verif.Props.SourceModule
import Verif.Source.Adapter
import Verif.Source.Testing
import Verif.Model.PyAdapt
import Verif.Lemmas.PyAdaptRun
import Verif.Props.SourceAdapter
import Verif.Model.PyWatch
import Verif.Lemmas.PyWatchRun
import Verif.Props.SourceWatch
import Verif.Model.PyRest
import Verif.Props.SourceRest
import Verif.Model.Xml
import Verif.Source.Schemas
import Verif.Source.Files
import Verif.Model.PyXml
import Verif.Spec.Xml
import Verif.Lemmas.PyXmlRun
import Verif.Props.SourceXml
import Verif.Props.SourceXmlArgs
import Verif.Props.SourceXmlLoad
import Verif.Props.SourceXmlFile
import Verif.Props.SourceXmlRefused
import Verif.Props.SourceXmlShipped
import Verif.Model.CSyntax
import Verif.Source.CFiles
import Verif.Model.CRun
import Verif.Lemmas.CRun
import Verif.Props.SourceC1
import Verif.Props.SourceC2
import Verif.Props.SourceC3
import Verif.Props.SourceC4
import Verif.Props.SourceC5
import Verif.Model.CPlain
import Verif.Source.CPlain
import Verif.Model.CInit
import Verif.Spec.CInit
import Verif.Props.SourceCInit
import Verif.Model.PyTop
import Verif.Source.Modules
import Verif.Spec.Top
import Verif.Props.SourceModules
import Verif.Model.PyContract
import Verif.Source.Interfaces
import Verif.Spec.Contract
import Verif.Props.SourceContract
import Verif.Source.SandboxSecurity
import Verif.Model.PySandbox
import Verif.Props.SourceSandbox
import Verif.Source.Sandbox
import Verif.Model.PySimulation
import Verif.Props.SourceSimulation
import Verif.Model.PyWorld
import Verif.Props.SourceWorld
import Verif.Model.PyTurn
import Verif.Props.SourceTurn
import Verif.Props.SourceLast
import Verif.Props.SourceBooks
