import Verif.Lib.Dict
import Verif.Props.ASPM
import Verif.Props.Bits
import Verif.Props.CPUFreq
import Verif.Props.CPUIdle
import Verif.Props.CPUOnline
import Verif.Props.CStatesYaml
import Verif.Props.ClosestMatch
import Verif.Props.EP
import Verif.Props.FeaturedMSR
import Verif.Props.HWP
import Verif.Props.Human
import Verif.Props.HumanDuration
import Verif.Props.HumanSI
import Verif.Props.KernelVersion
import Verif.Props.MSR
import Verif.Props.MSRRefine
import Verif.Props.MSRRemote
import Verif.Props.MSRTrans
import Verif.Props.OpTarget
import Verif.Props.PCStateConfigCtl
import Verif.Props.PMQoS
import Verif.Props.PStates
import Verif.Props.Power
import Verif.Props.PrinterText
import Verif.Props.ProcOut
import Verif.Props.ProcShell
import Verif.Props.PropsBase
import Verif.Props.PropsYaml
import Verif.Props.SysfsIO
import Verif.Props.SysfsRefine
import Verif.Props.SysfsTrans
import Verif.Props.TopoBuild
import Verif.Props.Topology
import Verif.Props.Tpmi
import Verif.Props.TpmiIter
import Verif.Props.Trivial
import Verif.Props.UncoreFreq
import Verif.Model.FreqInfo
import Verif.Props.FreqInfoSpec
import Verif.Lemmas.FreqInfo
import Verif.Props.FreqInfo
import Verif.Model.FreqList
import Verif.Props.FreqListSpec
import Verif.Props.FreqList
import Verif.Model.IdleGov
import Verif.Lemmas.IdleGov
import Verif.Props.IdleGov
import Verif.Model.CStates
import Verif.Props.CStatesSpec
import Verif.Lemmas.CStates
import Verif.Lemmas.CStatesSet
import Verif.Props.CStates
import Verif.Model.PropScopes
import Verif.Props.PropScopes
import Verif.Model.TopoPrint
import Verif.Props.TopoPrintSpec
import Verif.Lemmas.TopoPrint
import Verif.Props.TopoPrint
import Verif.Model.PropsTarget
import Verif.Props.PropsTargetSpec
import Verif.Lemmas.PropsTarget
import Verif.Props.PropsTarget
import Verif.Lemmas.MSRView
import Verif.Model.RaplLimits
import Verif.Props.RaplLimitsSpec
import Verif.Lemmas.RaplLimits
import Verif.Props.RaplLimits
import Verif.Model.TpmiSpecFile
import Verif.Props.TpmiSpecFileSpec
import Verif.Lemmas.TpmiSpecFile
import Verif.Props.TpmiSpecFile
import Verif.Model.TpmiDiscover
import Verif.Props.TpmiDiscoverSpec
import Verif.Lemmas.TpmiDiscover
import Verif.Props.TpmiDiscover
import Verif.Model.TpmiCmd
import Verif.Props.TpmiCmdSpec
import Verif.Lemmas.TpmiCmd
import Verif.Props.TpmiCmd
import Verif.Model.HotplugCmd
import Verif.Props.HotplugCmdSpec
import Verif.Lemmas.HotplugCmd
import Verif.Props.HotplugCmd
import Verif.Model.HumanPrint
import Verif.Props.HumanPrintSpec
import Verif.Lemmas.HumanPrint
import Verif.Props.HumanPrint
import Verif.Model.HumanCStates
import Verif.Props.HumanCStatesSpec
import Verif.Lemmas.HumanCStates
import Verif.Props.HumanCStates
import Verif.Model.CStatesCmd
import Verif.Props.CStatesCmdSpec
import Verif.Lemmas.CStatesCmd
import Verif.Props.CStatesCmd
import Verif.Model.ASPMCmd
import Verif.Props.ASPMCmdSpec
import Verif.Props.ASPMCmd
import Verif.Model.PropsCmd
import Verif.Props.PropsCmdSpec
import Verif.Lemmas.PropsCmd
import Verif.Props.PropsCmd
import Verif.Model.PMQoSCmd
import Verif.Props.PMQoSCmdSpec
import Verif.Lemmas.PMQoSCmd
import Verif.Props.PMQoSCmd
import Verif.Model.RestoreCmd
import Verif.Props.RestoreCmdSpec
import Verif.Lemmas.RestoreCmd
import Verif.Lemmas.RestoreSave
import Verif.Lemmas.RestoreFreqs
import Verif.Lemmas.RestoreWorks
import Verif.Props.RestoreCmd
import Verif.Model.PMQoSRestore
import Verif.Props.PMQoSRestoreSpec
import Verif.Lemmas.PMQoSRestore
import Verif.Props.PMQoSRestore
import Verif.Model.UncoreProps
import Verif.Props.UncorePropsSpec
import Verif.Lemmas.UncoreProps
import Verif.Props.UncoreProps
import Verif.Props.CmdLine
import Verif.Props.Emul
import Verif.Props.MSRFeatures
import Verif.Props.Drivers
import Verif.Props.SetErrors
import Verif.Props.YamlLoad
import Verif.Props.TpmiText
import Verif.Props.CPUIdent
import Verif.Props.Systemctl
import Verif.Props.ProjectFiles
import Verif.Props.ToolChecker
import Verif.Props.Closing
import Verif.Props.FileOps
import Verif.Props.EmulHost
import Verif.Props.Logging
import Verif.Props.CPUFreqFiles
import Verif.Props.ToolCheckerLines
import Verif.Props.PropErrors
import Verif.Props.ToolCheckerName
import Verif.Props.ClosingNames
import Verif.Props.IntShell
import Verif.Props.HWPRestore
import Verif.Props.FreqNames
import Verif.Props.RunCmd
import Verif.Props.Connect
import Verif.Props.SetOrder
import Verif.Props.SaveFile
import Verif.Props.Dispatch
import Verif.Props.Which
import Verif.Props.ShellCmd
import Verif.Props.PropOptions
import Verif.Props.WrapFile
import Verif.Props.WrapSysfs
import Verif.Props.PropAbbrev
import Verif.Props.CacheInfo
import Verif.Props.KverBin
