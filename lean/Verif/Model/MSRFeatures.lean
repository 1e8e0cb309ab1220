import Verif.Lib.Dict
import Verif.Model.CPUModels
import Verif.Model.CPUInfo
import Verif.Model.PCStateConfigCtl

/-!
Model of the features of the model-specific registers: the tables of all the modules pepclibs/msr/*.py and the creation of their
objects (pepclibs/msr/_FeaturedMSR.py).
-/

namespace Verif.MSRFeatures

open Verif.Bits (BitRange FieldVal)
open Verif.FeaturedMSR (Feature Val)
open Verif.RegFile (Reg)
open Verif.CPUModels
open Verif.CPUInfo (Scope Level)

/-- One entry of a features dictionary. `bits` is `none` if it is set when the object is created, `vals` is empty if there is no
"vals" key, and `writable` is true if there is no "writable" key. `supported` is set when the object is created. The "name", "help"
and "type" keys (but for "bool") are not modelled. The values of pepclibs/msr/FSBFreq.py are floating point numbers, here they are
the text of the number. Models: the `FEATURES` dictionaries of pepclibs/msr/*.py. -/
structure Finfo where
  name : PyStr
  cpumodels : Option (List Nat)
  cpuflags : Option (List PyStr)
  bits : Option BitRange
  vals : Dict PyStr Int
  aliases : Option (Dict PyStr PyStr)
  isBool : Bool
  writable : Bool
  sname : Option Scope
  iosname : Option Scope
  supported : Nat → Bool := fun _ => false

/-! ### PMLogicalId -/

namespace PMLogicalId

/-- Models: pepclibs/msr/PMLogicalId.py:20 `_PLI_CPUS`. -/
def pliCpus : List Nat :=
  Group.GNR ++ Group.CRESTMONT

/-- Models: pepclibs/msr/PMLogicalId.py:24-55 `FEATURES`. -/
def features : List Finfo := [
  { name := "domain_id".toList, cpumodels := some pliCpus, cpuflags := none, bits := some (15, 11),
    vals := [], aliases := none, isBool := false, writable := false,
    sname := some (.lvl .CPU), iosname := some (.lvl .CPU) },
  { name := "module_id".toList, cpumodels := some pliCpus, cpuflags := none, bits := some (10, 3),
    vals := [], aliases := none, isBool := false, writable := false,
    sname := some (.lvl .CPU), iosname := some (.lvl .CPU) },
  { name := "cpu_id".toList, cpumodels := some pliCpus, cpuflags := none, bits := some (2, 0),
    vals := [], aliases := none, isBool := false, writable := false,
    sname := some (.lvl .CPU), iosname := some (.lvl .CPU) }]

/-- Models: pepclibs/msr/PMLogicalId.py:17, 62. -/
def regaddr : Nat := 0x54

end PMLogicalId

/-! ### FSBFreq -/

namespace FSBFreq

/-- Models: pepclibs/msr/FSBFreq.py:22-26 `_CORE2_FSB_CODES`. -/
def core2FsbCodes : Dict PyStr Int × BitRange :=
  ([("100.0".toList, 5), ("133.33".toList, 1), ("166.67".toList, 3), ("200.0".toList, 2), ("266.67".toList, 0),
    ("333.33".toList, 4), ("400.0".toList, 6)], (2, 0))

/-- Models: pepclibs/msr/FSBFreq.py:29-31 `_OLD_ATOM_FSB_CODES`. -/
def oldAtomFsbCodes : Dict PyStr Int × BitRange :=
  ([("83.0".toList, 7), ("100.0".toList, 5), ("133.33".toList, 1), ("166.67".toList, 3)], (2, 0))

/-- Models: pepclibs/msr/FSBFreq.py:34-37 `_SILVERMONT_FSB_CODES`. -/
def silvermontFsbCodes : Dict PyStr Int × BitRange :=
  ([("80.0".toList, 4), ("83.3".toList, 0), ("100.0".toList, 1), ("133.3".toList, 2), ("116.7".toList, 3)], (2, 0))

/-- Models: pepclibs/msr/FSBFreq.py:40-45 `_AIRMONT_FSB_CODES`. -/
def airmontFsbCodes : Dict PyStr Int × BitRange :=
  ([("83.3".toList, 0), ("100.0".toList, 1), ("133.3".toList, 2), ("116.7".toList, 3), ("80.0".toList, 4),
    ("93.3".toList, 5), ("90.0".toList, 6), ("88.9".toList, 7), ("87.5".toList, 8)], (3, 0))

/-- Models: pepclibs/msr/FSBFreq.py:48-59 `_FSB_CODES`. -/
def fsbCodes : List (Nat × Dict PyStr Int × BitRange) :=
  [(CPUModels.CORE2_MEROM, core2FsbCodes),
   (CPUModels.ATOM_BONNELL_MID, oldAtomFsbCodes),
   (CPUModels.ATOM_BONNELL, oldAtomFsbCodes),
   (CPUModels.ATOM_SALTWELL, oldAtomFsbCodes),
   (CPUModels.ATOM_SALTWELL_MID, oldAtomFsbCodes),
   (CPUModels.ATOM_SALTWELL_TABLET, oldAtomFsbCodes),
   (CPUModels.ATOM_SILVERMONT, silvermontFsbCodes),
   (CPUModels.ATOM_SILVERMONT_MID, silvermontFsbCodes),
   (CPUModels.ATOM_SILVERMONT_MID1, silvermontFsbCodes),
   (CPUModels.ATOM_AIRMONT, airmontFsbCodes)]

/-- Models: pepclibs/msr/FSBFreq.py:62 `_MODULE_SCOPE_CPUS`. -/
def moduleScopeCpus : List Nat :=
  Group.SILVERMONT ++ Group.AIRMONT

/-- Models: pepclibs/msr/FSBFreq.py:66-76 `FEATURES`. -/
def features : List Finfo := [
  { name := "fsb".toList, cpumodels := some (fsbCodes.map Prod.fst), cpuflags := none, bits := none,
    vals := [], aliases := none, isBool := false, writable := false,
    sname := none, iosname := none }]

/-- Models: pepclibs/msr/FSBFreq.py:19, 84. -/
def regaddr : Nat := 0xcd

end FSBFreq

/-! ### PlatformInfo -/

namespace PlatformInfo

/-- Models: pepclibs/msr/PlatformInfo.py:21-43 `_EFREQ_CPUS`. -/
def efreqCpus : List Nat :=
  Group.GNR ++ Group.EMR ++ Group.METEORLAKE ++ Group.SPR ++ Group.RAPTORLAKE ++
  Group.ALDERLAKE ++ Group.ROCKETLAKE ++ Group.TIGERLAKE ++ Group.ICELAKE ++ Group.COMETLAKE ++ Group.KABYLAKE ++
  Group.CANNONLAKE ++ Group.SKYLAKE ++ Group.BROADWELL ++ Group.HASWELL ++ Group.IVYBRIDGE ++ Group.SANDYBRIDGE ++
  Group.WESTMERE ++ Group.NEHALEM ++ Group.CRESTMONT ++ Group.TREMONT ++ Group.GOLDMONT ++ Group.PHI

/-- Models: pepclibs/msr/PlatformInfo.py:46-65 `_MIN_OPER_RATIO_CPUS`. -/
def minOperRatioCpus : List Nat :=
  Group.GNR ++ Group.EMR ++ Group.METEORLAKE ++ Group.SPR ++ Group.RAPTORLAKE ++
  Group.ALDERLAKE ++ Group.ROCKETLAKE ++ Group.TIGERLAKE ++ Group.ICELAKE ++ Group.COMETLAKE ++ Group.KABYLAKE ++
  Group.CANNONLAKE ++ Group.SKYLAKE ++ Group.BROADWELL ++ Group.HASWELL ++ [CPUModels.IVYBRIDGE] ++ Group.CRESTMONT ++
  Group.TREMONT ++ Group.GOLDMONT ++ Group.PHI

/-- Models: pepclibs/msr/PlatformInfo.py:68-69 `_BASEFREQ_CPUS`. -/
def basefreqCpus : List Nat :=
  efreqCpus ++ Group.SILVERMONT ++ Group.AIRMONT

/-- Models: pepclibs/msr/PlatformInfo.py:73-107 `FEATURES`. -/
def features : List Finfo := [
  { name := "max_non_turbo_ratio".toList, cpumodels := some basefreqCpus, cpuflags := none, bits := some (15, 8),
    vals := [], aliases := none, isBool := false, writable := false,
    sname := none, iosname := none },
  { name := "max_eff_ratio".toList, cpumodels := some efreqCpus, cpuflags := none, bits := some (47, 40),
    vals := [], aliases := none, isBool := false, writable := false,
    sname := none, iosname := none },
  { name := "min_oper_ratio".toList, cpumodels := some minOperRatioCpus, cpuflags := none, bits := some (55, 48),
    vals := [], aliases := none, isBool := false, writable := false,
    sname := none, iosname := none }]

/-- Models: pepclibs/msr/PlatformInfo.py:18, 115. -/
def regaddr : Nat := 0xce

end PlatformInfo

/-! ### PCStateConfigCtl -/

namespace PCStateConfigCtl

/-- Models: pepclibs/msr/PCStateConfigCtl.py:74-120 `_PKG_CST_LIMITS`. -/
def pkgCstLimits : List (Nat × Verif.PCStateConfigCtl.Limits) :=
  [(CPUModels.ATOM_DARKMONT_X, Verif.PCStateConfigCtl.icxLimits),
   (CPUModels.ATOM_CRESTMONT_X, Verif.PCStateConfigCtl.icxLimits),
   (CPUModels.GRANITERAPIDS_X, Verif.PCStateConfigCtl.icxLimits),
   (CPUModels.GRANITERAPIDS_D, Verif.PCStateConfigCtl.icxLimits),
   (CPUModels.EMERALDRAPIDS_X, Verif.PCStateConfigCtl.skxLimits),
   (CPUModels.SAPPHIRERAPIDS_X, Verif.PCStateConfigCtl.skxLimits),
   (CPUModels.ICELAKE_X, Verif.PCStateConfigCtl.icxLimits),
   (CPUModels.ICELAKE_D, Verif.PCStateConfigCtl.icxLimits),
   (CPUModels.SKYLAKE_X, Verif.PCStateConfigCtl.skxLimits),
   (CPUModels.BROADWELL_X, Verif.PCStateConfigCtl.hsxLimits),
   (CPUModels.BROADWELL_D, Verif.PCStateConfigCtl.bdwdLimits),
   (CPUModels.BROADWELL_G, Verif.PCStateConfigCtl.bdwdLimits),
   (CPUModels.HASWELL_X, Verif.PCStateConfigCtl.hsxLimits),
   (CPUModels.IVYBRIDGE_X, Verif.PCStateConfigCtl.skxLimits),
   (CPUModels.XEON_PHI_KNM, Verif.PCStateConfigCtl.skxLimits),
   (CPUModels.XEON_PHI_KNL, Verif.PCStateConfigCtl.skxLimits),
   (CPUModels.ATOM_GOLDMONT_D, Verif.PCStateConfigCtl.dnvLimits),
   (CPUModels.ROCKETLAKE, Verif.PCStateConfigCtl.pc10Limits),
   (CPUModels.ALDERLAKE, Verif.PCStateConfigCtl.pc10Limits),
   (CPUModels.ALDERLAKE_L, Verif.PCStateConfigCtl.pc10Limits),
   (CPUModels.ALDERLAKE_N, Verif.PCStateConfigCtl.pc10Limits),
   (CPUModels.TIGERLAKE, Verif.PCStateConfigCtl.pc10Limits),
   (CPUModels.TIGERLAKE_L, Verif.PCStateConfigCtl.pc10Limits),
   (CPUModels.LAKEFIELD, Verif.PCStateConfigCtl.pc10Limits),
   (CPUModels.COMETLAKE, Verif.PCStateConfigCtl.pc10Limits),
   (CPUModels.COMETLAKE_L, Verif.PCStateConfigCtl.pc10Limits),
   (CPUModels.KABYLAKE_L, Verif.PCStateConfigCtl.pc10Limits),
   (CPUModels.KABYLAKE, Verif.PCStateConfigCtl.pc10Limits),
   (CPUModels.ICELAKE_L, Verif.PCStateConfigCtl.pc10Limits),
   (CPUModels.ICELAKE_NNPI, Verif.PCStateConfigCtl.pc10Limits),
   (CPUModels.CANNONLAKE_L, Verif.PCStateConfigCtl.pc10Limits),
   (CPUModels.SKYLAKE, Verif.PCStateConfigCtl.pc10Limits),
   (CPUModels.SKYLAKE_L, Verif.PCStateConfigCtl.pc10Limits),
   (CPUModels.BROADWELL, Verif.PCStateConfigCtl.pc10Limits),
   (CPUModels.HASWELL_L, Verif.PCStateConfigCtl.pc10Limits),
   (CPUModels.METEORLAKE_L, Verif.PCStateConfigCtl.pc10Limits),
   (CPUModels.LUNARLAKE_M, Verif.PCStateConfigCtl.lnlLimits),
   (CPUModels.HASWELL, Verif.PCStateConfigCtl.pc7sLimits),
   (CPUModels.HASWELL_G, Verif.PCStateConfigCtl.pc7sLimits)]

/-- Models: pepclibs/msr/PCStateConfigCtl.py:123 `_MODULE_SCOPE_CPUS`. -/
def moduleScopeCpus : List Nat :=
  Group.SILVERMONT ++ Group.AIRMONT

/-- Models: pepclibs/msr/PCStateConfigCtl.py:124 `_PACKAGE_SCOPE_CPUS`. -/
def packageScopeCpus : List Nat :=
  Group.PHI

/-- Models: pepclibs/msr/PCStateConfigCtl.py:128-177 `FEATURES`. -/
def features : List Finfo := [
  { name := "pkg_cstate_limit".toList, cpumodels := some (pkgCstLimits.map Prod.fst), cpuflags := none, bits := none,
    vals := [], aliases := some [], isBool := false, writable := true,
    sname := none, iosname := none },
  { name := "pkg_cstate_limit_lock".toList, cpumodels := some (pkgCstLimits.map Prod.fst), cpuflags := none,
    bits := some (15, 15),
    vals := [("on".toList, 1), ("off".toList, 0)], aliases := none, isBool := true, writable := false,
    sname := none, iosname := none },
  { name := "c1_demotion".toList, cpumodels := none, cpuflags := none, bits := some (26, 26),
    vals := [("on".toList, 1), ("off".toList, 0)], aliases := none, isBool := true, writable := true,
    sname := none, iosname := none },
  { name := "c1_undemotion".toList, cpumodels := none, cpuflags := none, bits := some (28, 28),
    vals := [("on".toList, 1), ("off".toList, 0)], aliases := none, isBool := true, writable := true,
    sname := none, iosname := none }]

/-- Models: pepclibs/msr/PCStateConfigCtl.py:23, 185. -/
def regaddr : Nat := 0xe2

end PCStateConfigCtl

/-! ### MiscFeatureControl -/

namespace MiscFeatureControl

/-- Models: pepclibs/msr/MiscFeatureControl.py:22-25 `_L2_AND_DCU_CPUS`. -/
def l2AndDcuCpus : List Nat :=
  Group.TREMONT ++ Group.GOLDMONT ++ [CPUModels.ATOM_SILVERMONT_D] ++ Group.PHI

/-- Models: pepclibs/msr/MiscFeatureControl.py:29-47 `_ALL_PREFETCHERS_CPUS`. -/
def allPrefetchersCpus : List Nat :=
  Group.CRESTMONT ++ Group.GNR ++ Group.METEORLAKE ++ Group.EMR ++
  Group.RAPTORLAKE ++ Group.ALDERLAKE ++ Group.ROCKETLAKE ++ Group.SPR ++ Group.TIGERLAKE ++ Group.ICELAKE ++
  Group.COMETLAKE ++ Group.KABYLAKE ++ Group.CANNONLAKE ++ Group.SKYLAKE ++ Group.BROADWELL ++ Group.HASWELL ++
  Group.IVYBRIDGE ++ Group.SANDYBRIDGE ++ Group.WESTMERE

/-- Models: pepclibs/msr/MiscFeatureControl.py:50-52 `_MODULE_SCOPE_L2_HW_PREFETCHER`. -/
def moduleScopeL2HwPrefetcher : List Nat :=
  Group.TREMONT ++ Group.PHI ++ Group.GOLDMONT

/-- Models: pepclibs/msr/MiscFeatureControl.py:56-101 `FEATURES`. -/
def features : List Finfo := [
  { name := "l2_hw_prefetcher".toList, cpumodels := some (l2AndDcuCpus ++ allPrefetchersCpus), cpuflags := none,
    bits := none,
    vals := [("on".toList, 0), ("off".toList, 1)], aliases := none, isBool := true, writable := true,
    sname := none, iosname := none },
  { name := "l2_adj_prefetcher".toList, cpumodels := some allPrefetchersCpus, cpuflags := none, bits := none,
    vals := [("on".toList, 0), ("off".toList, 1)], aliases := none, isBool := true, writable := true,
    sname := some (.lvl .core), iosname := some (.lvl .core) },
  { name := "dcu_hw_prefetcher".toList, cpumodels := some (l2AndDcuCpus ++ allPrefetchersCpus), cpuflags := none,
    bits := none,
    vals := [("on".toList, 0), ("off".toList, 1)], aliases := none, isBool := true, writable := true,
    sname := some (.lvl .core), iosname := some (.lvl .core) },
  { name := "dcu_ip_prefetcher".toList, cpumodels := some allPrefetchersCpus, cpuflags := none, bits := none,
    vals := [("on".toList, 0), ("off".toList, 1)], aliases := none, isBool := true, writable := true,
    sname := some (.lvl .core), iosname := some (.lvl .core) }]

/-- Models: pepclibs/msr/MiscFeatureControl.py:19, 109. -/
def regaddr : Nat := 0x1a4

end MiscFeatureControl

/-! ### TurboRatioLimit -/

namespace TurboRatioLimit

/-- Models: pepclibs/msr/TurboRatioLimit.py:24-42 `_CT_CPUS`. -/
def ctCpus : List Nat :=
  Group.METEORLAKE ++ Group.RAPTORLAKE ++ Group.ALDERLAKE ++ Group.ROCKETLAKE ++
  Group.TIGERLAKE ++ Group.LAKEFIELD ++ Group.ICL_CLIENT ++ Group.SKL_CLIENT ++ Group.COMETLAKE ++ Group.KABYLAKE ++
  Group.CANNONLAKE ++ Group.BROADWELL ++ [CPUModels.ATOM_SILVERMONT_D] ++ Group.HASWELL ++ Group.IVYBRIDGE ++
  Group.SANDYBRIDGE ++ [CPUModels.NEHALEM, CPUModels.NEHALEM_G, CPUModels.NEHALEM_EP]

/-- Models: pepclibs/msr/TurboRatioLimit.py:49-58 `_GT_CPUS`. -/
def gtCpus : List Nat :=
  Group.GNR ++ Group.CRESTMONT ++ Group.EMR ++ Group.SPR ++ [CPUModels.ATOM_TREMONT_D] ++
  Group.ICX ++ Group.SKX ++ [CPUModels.ATOM_GOLDMONT_D, CPUModels.ATOM_GOLDMONT, CPUModels.ATOM_GOLDMONT_PLUS]

/-- Models: pepclibs/msr/TurboRatioLimit.py:62-86 `FEATURES`. -/
def features : List Finfo := [
  { name := "max_1c_turbo_ratio".toList, cpumodels := some ctCpus, cpuflags := none, bits := some (7, 0),
    vals := [], aliases := none, isBool := false, writable := false,
    sname := none, iosname := none },
  { name := "max_g0_turbo_ratio".toList, cpumodels := some gtCpus, cpuflags := none, bits := some (7, 0),
    vals := [], aliases := none, isBool := false, writable := false,
    sname := none, iosname := none }]

/-- Models: pepclibs/msr/TurboRatioLimit.py:18, 94. -/
def regaddr : Nat := 0x1ad

end TurboRatioLimit

/-! ### TurboRatioLimit1 -/

namespace TurboRatioLimit1

/-- Models: pepclibs/msr/TurboRatioLimit1.py:24-37 `FEATURES`. -/
def features : List Finfo := [
  { name := "g0_cpu_cnt".toList, cpumodels := some (TurboRatioLimit.gtCpus), cpuflags := none, bits := some (7, 0),
    vals := [], aliases := none, isBool := false, writable := false,
    sname := none, iosname := none }]

/-- Models: pepclibs/msr/TurboRatioLimit1.py:18, 47. -/
def regaddr : Nat := 0x1ae

end TurboRatioLimit1

/-! ### EnergyPerfBias -/

namespace EnergyPerfBias

/-- Models: pepclibs/msr/EnergyPerfBias.py:21 `_CORE_SCOPE_CPUS`. -/
def coreScopeCpus : List Nat :=
  Group.SILVERMONT

/-- Models: pepclibs/msr/EnergyPerfBias.py:22 `_PACKAGE_SCOPE_CPUS`. -/
def packageScopeCpus : List Nat :=
  Group.WESTMERE ++ Group.SANDYBRIDGE

/-- Models: pepclibs/msr/EnergyPerfBias.py:26-38 `FEATURES`. -/
def features : List Finfo := [
  { name := "epb".toList, cpumodels := none, cpuflags := some ["epb".toList], bits := some (3, 0),
    vals := [], aliases := none, isBool := false, writable := true,
    sname := none, iosname := none }]

/-- Models: pepclibs/msr/EnergyPerfBias.py:18, 46. -/
def regaddr : Nat := 0x1b0

end EnergyPerfBias

/-! ### PowerCtl -/

namespace PowerCtl

/-- Models: pepclibs/msr/PowerCtl.py:22-31 `_CSTATE_PREWAKE_CPUS`. -/
def cstatePrewakeCpus : List Nat :=
  [CPUModels.GRANITERAPIDS_X, CPUModels.GRANITERAPIDS_D, CPUModels.EMERALDRAPIDS_X, CPUModels.SAPPHIRERAPIDS_X,
   CPUModels.ICELAKE_X, CPUModels.ICELAKE_D, CPUModels.SKYLAKE_X, CPUModels.BROADWELL_X, CPUModels.HASWELL_X, CPUModels.IVYBRIDGE_X]

/-- Models: pepclibs/msr/PowerCtl.py:34-37 `LTR_CPUS`. -/
def ltrCpus : List Nat :=
  [CPUModels.GRANITERAPIDS_X, CPUModels.EMERALDRAPIDS_X, CPUModels.SAPPHIRERAPIDS_X, CPUModels.ICELAKE_X]

/-- Models: pepclibs/msr/PowerCtl.py:45-77 `FEATURES`. -/
def features : List Finfo := [
  { name := "c1e_autopromote".toList, cpumodels := none, cpuflags := none, bits := some (1, 1),
    vals := [("on".toList, 1), ("off".toList, 0)], aliases := none, isBool := true, writable := true,
    sname := none, iosname := none },
  { name := "cstate_prewake".toList, cpumodels := some cstatePrewakeCpus, cpuflags := none, bits := some (30, 30),
    vals := [("on".toList, 0), ("off".toList, 1)], aliases := none, isBool := true, writable := true,
    sname := none, iosname := none },
  { name := "ltr".toList, cpumodels := some ltrCpus, cpuflags := none, bits := some (35, 35),
    vals := [("on".toList, 0), ("off".toList, 1)], aliases := none, isBool := true, writable := true,
    sname := some (.lvl .package), iosname := none }]

/-- Models: pepclibs/msr/PowerCtl.py:19, 85. -/
def regaddr : Nat := 0x1fc

end PowerCtl

/-! ### RaplPowerUnit -/

namespace RaplPowerUnit

/-- Models: pepclibs/msr/RaplPowerUnit.py:20-40 `_RPU_CPUS`. -/
def rpuCpus : List Nat :=
  Group.GNR ++ Group.EMR ++ Group.METEORLAKE ++ Group.SPR ++ Group.RAPTORLAKE ++
  Group.ALDERLAKE ++ Group.ROCKETLAKE ++ Group.TIGERLAKE ++ Group.ICELAKE ++ Group.COMETLAKE ++ Group.KABYLAKE ++
  Group.CANNONLAKE ++ Group.SKYLAKE ++ Group.BROADWELL ++ Group.HASWELL ++ Group.IVYBRIDGE ++ Group.SANDYBRIDGE ++
  Group.WESTMERE ++ Group.TREMONT ++ Group.GOLDMONT ++ Group.PHI

/-- Models: pepclibs/msr/RaplPowerUnit.py:44-75 `FEATURES`. -/
def features : List Finfo := [
  { name := "power_units".toList, cpumodels := some rpuCpus, cpuflags := none, bits := some (3, 0),
    vals := [], aliases := none, isBool := false, writable := false,
    sname := some (.lvl .package), iosname := some (.lvl .package) },
  { name := "energy_units".toList, cpumodels := some rpuCpus, cpuflags := none, bits := some (12, 8),
    vals := [], aliases := none, isBool := false, writable := false,
    sname := some (.lvl .package), iosname := some (.lvl .package) },
  { name := "time_units".toList, cpumodels := some rpuCpus, cpuflags := none, bits := some (19, 16),
    vals := [], aliases := none, isBool := false, writable := false,
    sname := some (.lvl .package), iosname := some (.lvl .package) }]

/-- Models: pepclibs/msr/RaplPowerUnit.py:17, 82. -/
def regaddr : Nat := 0x606

end RaplPowerUnit

/-! ### PackagePowerLimit -/

namespace PackagePowerLimit

/-- Models: pepclibs/msr/PackagePowerLimit.py:22-42 `_PPL_CPUS`. -/
def pplCpus : List Nat :=
  Group.GNR ++ Group.EMR ++ Group.METEORLAKE ++ Group.SPR ++ Group.RAPTORLAKE ++
  Group.ALDERLAKE ++ Group.ROCKETLAKE ++ Group.TIGERLAKE ++ Group.ICELAKE ++ Group.COMETLAKE ++ Group.KABYLAKE ++
  Group.CANNONLAKE ++ Group.SKYLAKE ++ Group.BROADWELL ++ Group.HASWELL ++ Group.IVYBRIDGE ++ Group.SANDYBRIDGE ++
  Group.WESTMERE ++ Group.TREMONT ++ Group.GOLDMONT ++ Group.PHI

/-- Models: pepclibs/msr/PackagePowerLimit.py:46-131 `FEATURES`. -/
def features : List Finfo := [
  { name := "limit1".toList, cpumodels := some pplCpus, cpuflags := none, bits := some (14, 0),
    vals := [], aliases := none, isBool := false, writable := true,
    sname := some (.lvl .package), iosname := some (.lvl .package) },
  { name := "limit1_enable".toList, cpumodels := some pplCpus, cpuflags := none, bits := some (15, 15),
    vals := [("on".toList, 1), ("off".toList, 0)], aliases := none, isBool := true, writable := true,
    sname := some (.lvl .package), iosname := some (.lvl .package) },
  { name := "limit1_clamp".toList, cpumodels := some pplCpus, cpuflags := none, bits := some (16, 16),
    vals := [("on".toList, 1), ("off".toList, 0)], aliases := none, isBool := true, writable := true,
    sname := some (.lvl .package), iosname := some (.lvl .package) },
  { name := "limit1_window".toList, cpumodels := some pplCpus, cpuflags := none, bits := some (23, 17),
    vals := [], aliases := none, isBool := false, writable := false,
    sname := some (.lvl .package), iosname := some (.lvl .package) },
  { name := "limit2".toList, cpumodels := some pplCpus, cpuflags := none, bits := some (46, 32),
    vals := [], aliases := none, isBool := false, writable := true,
    sname := some (.lvl .package), iosname := some (.lvl .package) },
  { name := "limit2_enable".toList, cpumodels := some pplCpus, cpuflags := none, bits := some (47, 47),
    vals := [("on".toList, 1), ("off".toList, 0)], aliases := none, isBool := true, writable := true,
    sname := some (.lvl .package), iosname := some (.lvl .package) },
  { name := "limit2_clamp".toList, cpumodels := some pplCpus, cpuflags := none, bits := some (48, 48),
    vals := [("on".toList, 1), ("off".toList, 0)], aliases := none, isBool := true, writable := true,
    sname := some (.lvl .package), iosname := some (.lvl .package) },
  { name := "limit2_window".toList, cpumodels := some pplCpus, cpuflags := none, bits := some (55, 49),
    vals := [], aliases := none, isBool := false, writable := false,
    sname := some (.lvl .package), iosname := some (.lvl .package) }]

/-- Models: pepclibs/msr/PackagePowerLimit.py:19, 138. -/
def regaddr : Nat := 0x610

end PackagePowerLimit

/-! ### PackagePowerInfo -/

namespace PackagePowerInfo

/-- Models: pepclibs/msr/PackagePowerInfo.py:21-41 `_PPI_CPUS`. -/
def ppiCpus : List Nat :=
  Group.GNR ++ Group.EMR ++ Group.METEORLAKE ++ Group.SPR ++ Group.RAPTORLAKE ++
  Group.ALDERLAKE ++ Group.ROCKETLAKE ++ Group.TIGERLAKE ++ Group.ICELAKE ++ Group.COMETLAKE ++ Group.KABYLAKE ++
  Group.CANNONLAKE ++ Group.SKYLAKE ++ Group.BROADWELL ++ Group.HASWELL ++ Group.IVYBRIDGE ++ Group.SANDYBRIDGE ++
  Group.WESTMERE ++ Group.TREMONT ++ Group.GOLDMONT ++ Group.PHI

/-- Models: pepclibs/msr/PackagePowerInfo.py:45-56 `FEATURES`. -/
def features : List Finfo := [
  { name := "tdp".toList, cpumodels := some ppiCpus, cpuflags := none, bits := some (14, 0),
    vals := [], aliases := none, isBool := false, writable := false,
    sname := some (.lvl .package), iosname := some (.lvl .package) }]

/-- Models: pepclibs/msr/PackagePowerInfo.py:18, 63. -/
def regaddr : Nat := 0x614

end PackagePowerInfo

/-! ### UncoreRatioLimit -/

namespace UncoreRatioLimit

/-- Models: pepclibs/msr/UncoreRatioLimit.py:23-33 `_CPUS`. -/
def cpus : List Nat :=
  Group.EMR ++ Group.METEORLAKE ++ Group.SPR ++ Group.RAPTORLAKE ++
  [CPUModels.ALDERLAKE, CPUModels.ALDERLAKE_L] ++ Group.ICX ++ Group.SKX ++
  [CPUModels.BROADWELL_G, CPUModels.BROADWELL_D, CPUModels.BROADWELL_X]

/-- Models: pepclibs/msr/UncoreRatioLimit.py:37-60 `FEATURES`. -/
def features : List Finfo := [
  { name := "max_ratio".toList, cpumodels := some cpus, cpuflags := none, bits := some (6, 0),
    vals := [], aliases := none, isBool := false, writable := true,
    sname := none, iosname := none },
  { name := "min_ratio".toList, cpumodels := some cpus, cpuflags := none, bits := some (14, 8),
    vals := [], aliases := none, isBool := false, writable := true,
    sname := none, iosname := none }]

/-- Models: pepclibs/msr/UncoreRatioLimit.py:18, 68. -/
def regaddr : Nat := 0x620

end UncoreRatioLimit

/-! ### PMEnable -/

namespace PMEnable

/-- Models: pepclibs/msr/PMEnable.py:21-33 `FEATURES`. -/
def features : List Finfo := [
  { name := "hwp".toList, cpumodels := none, cpuflags := some ["hwp".toList], bits := some (0, 0),
    vals := [("on".toList, 1), ("off".toList, 0)], aliases := none, isBool := true, writable := true,
    sname := none, iosname := none }]

/-- Models: pepclibs/msr/PMEnable.py:17, 41. -/
def regaddr : Nat := 0x770

end PMEnable

/-! ### HWPCapabilities -/

namespace HWPCapabilities

/-- Models: pepclibs/msr/HWPCapabilities.py:21-58 `FEATURES`. -/
def features : List Finfo := [
  { name := "max_perf".toList, cpumodels := none, cpuflags := some ["hwp".toList], bits := some (7, 0),
    vals := [], aliases := none, isBool := false, writable := true,
    sname := some (.lvl .CPU), iosname := some (.lvl .CPU) },
  { name := "base_perf".toList, cpumodels := none, cpuflags := some ["hwp".toList], bits := some (15, 8),
    vals := [], aliases := none, isBool := false, writable := true,
    sname := some (.lvl .CPU), iosname := some (.lvl .CPU) },
  { name := "eff_perf".toList, cpumodels := none, cpuflags := some ["hwp".toList], bits := some (23, 16),
    vals := [], aliases := none, isBool := false, writable := true,
    sname := some (.lvl .CPU), iosname := some (.lvl .CPU) },
  { name := "min_perf".toList, cpumodels := none, cpuflags := some ["hwp".toList], bits := some (31, 24),
    vals := [], aliases := none, isBool := false, writable := true,
    sname := some (.lvl .CPU), iosname := some (.lvl .CPU) }]

/-- Models: pepclibs/msr/HWPCapabilities.py:17, 66. -/
def regaddr : Nat := 0x771

end HWPCapabilities

/-! ### HWPRequestPkg -/

namespace HWPRequestPkg

/-- Models: pepclibs/msr/HWPRequestPkg.py:22-52 `FEATURES`. -/
def features : List Finfo := [
  { name := "min_perf".toList, cpumodels := none, cpuflags := some ["hwp".toList, "hwp_pkg_req".toList],
    bits := some (7, 0),
    vals := [], aliases := none, isBool := false, writable := true,
    sname := none, iosname := none },
  { name := "max_perf".toList, cpumodels := none, cpuflags := some ["hwp".toList, "hwp_pkg_req".toList],
    bits := some (15, 8),
    vals := [], aliases := none, isBool := false, writable := true,
    sname := none, iosname := none },
  { name := "epp".toList, cpumodels := none, cpuflags := some ["hwp".toList, "hwp_epp".toList, "hwp_pkg_req".toList],
    bits := some (31, 24),
    vals := [], aliases := none, isBool := false, writable := true,
    sname := none, iosname := none }]

/-- Models: pepclibs/msr/HWPRequestPkg.py:18, 60. -/
def regaddr : Nat := 0x772

end HWPRequestPkg

/-! ### HWPRequest -/

namespace HWPRequest

/-- Models: pepclibs/msr/HWPRequest.py:24-99 `FEATURES`. -/
def features : List Finfo := [
  { name := "min_perf".toList, cpumodels := none, cpuflags := some ["hwp".toList], bits := some (7, 0),
    vals := [], aliases := none, isBool := false, writable := true,
    sname := some (.lvl .CPU), iosname := some (.lvl .CPU) },
  { name := "max_perf".toList, cpumodels := none, cpuflags := some ["hwp".toList], bits := some (15, 8),
    vals := [], aliases := none, isBool := false, writable := true,
    sname := some (.lvl .CPU), iosname := some (.lvl .CPU) },
  { name := "epp".toList, cpumodels := none, cpuflags := some ["hwp".toList, "hwp_epp".toList], bits := some (31, 24),
    vals := [], aliases := none, isBool := false, writable := true,
    sname := some (.lvl .CPU), iosname := some (.lvl .CPU) },
  { name := "pkg_control".toList, cpumodels := none, cpuflags := some ["hwp".toList, "hwp_pkg_req".toList],
    bits := some (42, 42),
    vals := [("on".toList, 1), ("off".toList, 0)], aliases := none, isBool := true, writable := true,
    sname := some (.lvl .CPU), iosname := some (.lvl .CPU) },
  { name := "epp_valid".toList, cpumodels := none, cpuflags := some ["hwp".toList, "hwp_epp".toList], bits := some (60, 60),
    vals := [("on".toList, 1), ("off".toList, 0)], aliases := none, isBool := true, writable := true,
    sname := some (.lvl .CPU), iosname := some (.lvl .CPU) },
  { name := "max_perf_valid".toList, cpumodels := none, cpuflags := some ["hwp".toList], bits := some (62, 62),
    vals := [("on".toList, 1), ("off".toList, 0)], aliases := none, isBool := true, writable := true,
    sname := some (.lvl .CPU), iosname := some (.lvl .CPU) },
  { name := "min_perf_valid".toList, cpumodels := none, cpuflags := some ["hwp".toList], bits := some (63, 63),
    vals := [("on".toList, 1), ("off".toList, 0)], aliases := none, isBool := true, writable := true,
    sname := some (.lvl .CPU), iosname := some (.lvl .CPU) }]

/-- Models: pepclibs/msr/HWPRequest.py:20, 107. -/
def regaddr : Nat := 0x774

end HWPRequest

/-! ### SwLTROvrd -/

namespace SwLTROvrd

/-- Models: pepclibs/msr/SwLTROvrd.py:21 `_LTR_CPUS`. -/
def ltrCpus : List Nat :=
  PowerCtl.ltrCpus

/-- Models: pepclibs/msr/SwLTROvrd.py:28-71 `FEATURES`. -/
def features : List Finfo := [
  { name := "sxl".toList, cpumodels := some ltrCpus, cpuflags := none, bits := some (25, 16),
    vals := [], aliases := none, isBool := false, writable := true,
    sname := some (.lvl .package), iosname := some (.lvl .package) },
  { name := "sxlm".toList, cpumodels := some ltrCpus, cpuflags := none, bits := some (28, 26),
    vals := [], aliases := none, isBool := false, writable := true,
    sname := some (.lvl .package), iosname := some (.lvl .package) },
  { name := "force_sxl".toList, cpumodels := some ltrCpus, cpuflags := none, bits := some (30, 30),
    vals := [("on".toList, 1), ("off".toList, 0)], aliases := none, isBool := true, writable := true,
    sname := some (.lvl .package), iosname := some (.lvl .package) },
  { name := "sxl_v".toList, cpumodels := some ltrCpus, cpuflags := none, bits := some (31, 31),
    vals := [("on".toList, 1), ("off".toList, 0)], aliases := none, isBool := true, writable := true,
    sname := some (.lvl .package), iosname := some (.lvl .package) }]

/-- Models: pepclibs/msr/SwLTROvrd.py:18, 78. -/
def regaddr : Nat := 0xa02

end SwLTROvrd

/-! ### The modules -/

/-- The modules pepclibs/msr/*.py with features. -/
inductive Module where
  | pmLogicalId
  | fsbFreq
  | platformInfo
  | pcStateConfigCtl
  | miscFeatureControl
  | turboRatioLimit
  | turboRatioLimit1
  | energyPerfBias
  | powerCtl
  | raplPowerUnit
  | packagePowerLimit
  | packagePowerInfo
  | uncoreRatioLimit
  | pmEnable
  | hwpCapabilities
  | hwpRequestPkg
  | hwpRequest
  | swLTROvrd
  deriving DecidableEq, Repr

/-- All of them. -/
def Module.all : List Module :=
  [.pmLogicalId, .fsbFreq, .platformInfo, .pcStateConfigCtl, .miscFeatureControl, .turboRatioLimit,
   .turboRatioLimit1, .energyPerfBias, .powerCtl, .raplPowerUnit, .packagePowerLimit, .packagePowerInfo,
   .uncoreRatioLimit, .pmEnable, .hwpCapabilities, .hwpRequestPkg, .hwpRequest, .swLTROvrd]

/-- The address of the register. -/
def Module.regaddr : Module → Nat
  | .pmLogicalId => PMLogicalId.regaddr
  | .fsbFreq => FSBFreq.regaddr
  | .platformInfo => PlatformInfo.regaddr
  | .pcStateConfigCtl => PCStateConfigCtl.regaddr
  | .miscFeatureControl => MiscFeatureControl.regaddr
  | .turboRatioLimit => TurboRatioLimit.regaddr
  | .turboRatioLimit1 => TurboRatioLimit1.regaddr
  | .energyPerfBias => EnergyPerfBias.regaddr
  | .powerCtl => PowerCtl.regaddr
  | .raplPowerUnit => RaplPowerUnit.regaddr
  | .packagePowerLimit => PackagePowerLimit.regaddr
  | .packagePowerInfo => PackagePowerInfo.regaddr
  | .uncoreRatioLimit => UncoreRatioLimit.regaddr
  | .pmEnable => PMEnable.regaddr
  | .hwpCapabilities => HWPCapabilities.regaddr
  | .hwpRequestPkg => HWPRequestPkg.regaddr
  | .hwpRequest => HWPRequest.regaddr
  | .swLTROvrd => SwLTROvrd.regaddr

/-- The features dictionary. -/
def Module.features : Module → List Finfo
  | .pmLogicalId => PMLogicalId.features
  | .fsbFreq => FSBFreq.features
  | .platformInfo => PlatformInfo.features
  | .pcStateConfigCtl => PCStateConfigCtl.features
  | .miscFeatureControl => MiscFeatureControl.features
  | .turboRatioLimit => TurboRatioLimit.features
  | .turboRatioLimit1 => TurboRatioLimit1.features
  | .energyPerfBias => EnergyPerfBias.features
  | .powerCtl => PowerCtl.features
  | .raplPowerUnit => RaplPowerUnit.features
  | .packagePowerLimit => PackagePowerLimit.features
  | .packagePowerInfo => PackagePowerInfo.features
  | .uncoreRatioLimit => UncoreRatioLimit.features
  | .pmEnable => PMEnable.features
  | .hwpCapabilities => HWPCapabilities.features
  | .hwpRequestPkg => HWPRequestPkg.features
  | .hwpRequest => HWPRequest.features
  | .swLTROvrd => SwLTROvrd.features

/-- The host: the vendor and the model of the processors, the CPUs, their flags and packages, the number of dies in package 0, and
`MSR_PM_ENABLE` on every CPU. -/
structure Host where
  vendor : PyStr
  model : Nat
  cpus : List Nat
  flags : Nat → List PyStr
  packages : List (List Nat)
  dies : Nat
  pmEnable : Nat → Except Exn Int

/-- Models: pepclibs/msr/_FeaturedMSR.py:466-477 `_get_clx_ap_adjusted_msr_scope()`. -/
def clxApScope (H : Host) : Scope := if H.model = CPUModels.SKYLAKE_X ∧ H.dies > 1 then .lvl .die else .lvl .package

/-- `finfo["sname"] = finfo["iosname"] = sname`. -/
def Finfo.setScope (s : Scope) (f : Finfo) : Finfo := { f with sname := some s, iosname := some s }

/-- The scopes. The dictionary is the one of the module, all the objects of the class share it, but every object copies it right
after this (C83 is about what else uses it).
Models: the methods `_set_baseclass_attributes()`: pepclibs/msr/PMLogicalId.py:66-69, pepclibs/msr/FSBFreq.py:108-120,
pepclibs/msr/PlatformInfo.py:119-126, pepclibs/msr/PCStateConfigCtl.py:279-302, pepclibs/msr/MiscFeatureControl.py:135-147,
pepclibs/msr/TurboRatioLimit.py:98-105, pepclibs/msr/TurboRatioLimit1.py:51-58, pepclibs/msr/EnergyPerfBias.py:50-64,
pepclibs/msr/PowerCtl.py:89-96, pepclibs/msr/RaplPowerUnit.py:86-93, pepclibs/msr/PackagePowerLimit.py:233-236,
pepclibs/msr/PackagePowerInfo.py:101-104, pepclibs/msr/UncoreRatioLimit.py:72-79, pepclibs/msr/PMEnable.py:45-52,
pepclibs/msr/HWPCapabilities.py:70-73, pepclibs/msr/HWPRequestPkg.py:64-71, pepclibs/msr/HWPRequest.py:149-152,
pepclibs/msr/SwLTROvrd.py:82-84. -/
def setScopes (H : Host) (m : Module) (f : Finfo) : Finfo :=
  match m with
  | .pmLogicalId | .packagePowerLimit | .packagePowerInfo | .hwpCapabilities | .hwpRequest | .swLTROvrd => f
  | .platformInfo | .turboRatioLimit | .turboRatioLimit1 | .powerCtl | .raplPowerUnit | .pmEnable | .hwpRequestPkg =>
    f.setScope (clxApScope H)
  | .uncoreRatioLimit => { f with sname := some (clxApScope H) }
  | .fsbFreq => f.setScope (if H.model ∈ FSBFreq.moduleScopeCpus then .lvl .module else .lvl .core)
  | .energyPerfBias =>
    f.setScope (if H.model ∈ EnergyPerfBias.coreScopeCpus then .lvl .core
      else if H.model ∈ EnergyPerfBias.packageScopeCpus then .lvl .package else .lvl .CPU)
  | .miscFeatureControl =>
    if f.name = "l2_hw_prefetcher".toList then
      f.setScope (if H.model ∈ MiscFeatureControl.moduleScopeL2HwPrefetcher then .lvl .module else .lvl .core)
    else f
  | .pcStateConfigCtl =>
    let ios : Scope :=
      if H.model ∈ PCStateConfigCtl.moduleScopeCpus then .lvl .module
      else if H.model ∈ PCStateConfigCtl.packageScopeCpus then .lvl .package
      else .lvl .core
    { f with sname := some (if "pkg_".toList.isPrefixOf f.name then clxApScope H else ios), iosname := some ios }

/-- The "supported" key; it is false for CPUs which do not exist. Models: pepclibs/msr/_FeaturedMSR.py:374-391. -/
def setSupported (H : Host) (f : Finfo) : Finfo :=
  { f with
    supported := fun c =>
      decide (c ∈ H.cpus) &&
      (match f.cpumodels with
        | some l => decide (H.model ∈ l)
        | none => true) &&
      match f.cpuflags with
        | some l => l.all fun x => decide (x ∈ H.flags c)
        | none => true }

/-- Models: pepclibs/msr/_FeaturedMSR.py:368-397 `_init_supported_flag()`. -/
def initSupported (H : Host) (fs : List Finfo) : Except Exn (List Finfo) :=
  let fs := fs.map (setSupported H)
  if fs.any fun f => H.cpus.any f.supported then .ok fs else .error .notSupported

/-- The keys which depend on the CPU model.
Models: pepclibs/msr/FSBFreq.py:87-99 `_init_features_dict_fsb()`, pepclibs/msr/MiscFeatureControl.py:112-125
`_init_features_dict_bits()`, pepclibs/msr/PCStateConfigCtl.py:254-269 `_init_features_dict_pkg_cstate_limit()`. -/
def initModel (H : Host) (m : Module) (f : Finfo) : Except Exn Finfo :=
  match m with
  | .fsbFreq =>
    if H.cpus.all f.supported then
      match FSBFreq.fsbCodes.lookup H.model with
      | some (codes, bits) => .ok { f with bits := some bits, vals := codes }
      | none => .error .pyKeyError
    else .ok f
  | .pcStateConfigCtl =>
    if f.name = "pkg_cstate_limit".toList ∧ H.cpus.all f.supported then
      match PCStateConfigCtl.pkgCstLimits.lookup H.model with
      | some L => .ok { f with bits := some L.bits, vals := L.codes, aliases := some L.aliases }
      | none => .error .pyKeyError
    else .ok f
  | .miscFeatureControl =>
    .ok <|
    if H.model ∈ Group.PHI then
      if f.name = "l2_hw_prefetcher".toList then { f with bits := some (1, 1) }
      else if f.name = "dcu_hw_prefetcher".toList then { f with bits := some (0, 0) }
      else f
    else
      if f.name = "l2_hw_prefetcher".toList then { f with bits := some (0, 0) }
      else if f.name = "l2_adj_prefetcher".toList then { f with bits := some (1, 1) }
      else if f.name = "dcu_hw_prefetcher".toList then { f with bits := some (2, 2) }
      else if f.name = "dcu_ip_prefetcher".toList then { f with bits := some (3, 3) }
      else f
  | _ => .ok f

/-- Apply a function which may fail to all the elements. -/
def mapE {α β : Type} (g : α → Except Exn β) : List α → Except Exn (List β)
  | [] => .ok []
  | a :: l =>
    match g a with
    | .error e => .error e
    | .ok b =>
      match mapE g l with
      | .error e => .error e
      | .ok bs => .ok (b :: bs)

/-- The CPUs of the packages without HWP. Models: pepclibs/msr/HWPRequest.py:164-177, pepclibs/msr/HWPRequestPkg.py:83-96,
pepclibs/msr/HWPCapabilities.py:85-98. -/
def hwpUnsupported (H : Host) : List (List Nat) → Except Exn (List Nat)
  | [] => .ok []
  | [] :: _ => .error .pyIndexError
  | (c :: cpus) :: pkgs =>
    let rest (off : Bool) : Except Exn (List Nat) :=
      match hwpUnsupported H pkgs with
      | .error e => .error e
      | .ok l => .ok (if off then c :: cpus ++ l else l)
    if "hwp".toList ∈ H.flags c then
      match H.pmEnable c with
      | .error e => .error e
      | .ok v =>
        match Bits.getBits v (0, 0) with
        | .error e => .error e
        | .ok b => rest (b == 0)
    else rest true

/-- Models: pepclibs/msr/HWPRequest.py:179-182, pepclibs/msr/HWPRequestPkg.py:98-101, pepclibs/msr/HWPCapabilities.py:100-103. -/
def dropCpus (cpus : List Nat) (f : Finfo) : Finfo :=
  match f.cpuflags with
  | some l => if "hwp".toList ∈ l then { f with supported := fun c => f.supported c && !decide (c ∈ cpus) } else f
  | none => f

/-- The classes with an `__init__()` which looks at `MSR_PM_ENABLE`. -/
def Module.hwp : Module → Bool
  | .hwpCapabilities | .hwpRequestPkg | .hwpRequest => true
  | _ => false

/-- Creating an object: its features, or the error. Models: pepclibs/msr/_FeaturedMSR.py:455-464, 494-530, and the `__init__()` and
`_init_features_dict()` methods of the sub-classes: pepclibs/msr/HWPRequest.py:154-182, pepclibs/msr/HWPRequestPkg.py:73-101,
pepclibs/msr/HWPCapabilities.py:75-103, pepclibs/msr/FSBFreq.py:101-106, pepclibs/msr/PCStateConfigCtl.py:271-277,
pepclibs/msr/MiscFeatureControl.py:127-133. The reverse dictionaries are the functions of `FeaturedMSR.Feature`. -/
def create (H : Host) (m : Module) : Except Exn (List Finfo) :=
  if H.vendor ≠ "GenuineIntel".toList then .error .notSupported
  else
    match initSupported H (m.features.map (setScopes H m)) with
    | .error e => .error e
    | .ok fs =>
      match mapE (initModel H m) fs with
      | .error e => .error e
      | .ok fs =>
        if m.hwp then
          match hwpUnsupported H H.packages with
          | .error e => .error e
          | .ok cpus => .ok (fs.map (dropCpus cpus))
        else .ok fs

/-! ### Access -/

/-- The feature with bits `b`. -/
def Finfo.feature (f : Finfo) (b : BitRange) : Feature := ⟨b, f.vals, f.aliases, f.isBool, f.writable, f.supported⟩

/-- Setting a feature of `MSR_PKG_POWER_LIMIT`; `units` converts a number of Watts (C40). Verification of the written value
is in the model of C88. Models: pepclibs/msr/PackagePowerLimit.py:195-231 `_set_limit()`, `_set_feature()`, called from
pepclibs/msr/_FeaturedMSR.py:280-315. -/
def writePpl (units : Val → Except Exn Int) (E : RegFile.Env) (f : Finfo) (b : BitRange) (val : Val) (cpus : List Nat) (R : Reg) :
    Reg × Except Exn Unit :=
  match FeaturedMSR.validateSupported (f.feature b) cpus with
  | .error e => (R, .error e)
  | .ok () =>
    match FeaturedMSR.normalizeValue (f.feature b) val with
    | .error e => (R, .error e)
    | .ok v =>
      if !f.writable then (R, .error .error)
      else if "_clamp".toList.isSuffixOf f.name ∨ "_enable".toList.isSuffixOf f.name then
        RegFile.writeBits E b (FeaturedMSR.fieldVal v) cpus R
      else if f.name = "limit1".toList ∨ f.name = "limit2".toList then
        match units v with
        | .error e => (R, .error e)
        | .ok n => RegFile.writeBits E b (.num n) cpus R
      else (R, .error .error)

/-- The registers, by address. -/
abbrev Regs := Nat → Reg

/-- Write a feature of an object. Unsupported features may have no bits, but they are refused first.
Models: pepclibs/msr/_FeaturedMSR.py:280-315 `write_feature()`. -/
def writeFeature (units : Val → Except Exn Int) (E : Nat → RegFile.Env) (m : Module) (f : Finfo) (val : Val) (cpus : List Nat)
    (S : Regs) : Regs × Except Exn Unit :=
  match f.bits with
  | none => (S, .error (if cpus.all f.supported then .pyTypeError else .notSupported))
  | some b =>
    let a := m.regaddr
    let (R, r) :=
      if m = .pcStateConfigCtl ∧ f.name = "pkg_cstate_limit".toList then
        Verif.PCStateConfigCtl.writeLimit (E a) (f.feature b) val cpus (S a)
      else if m = .packagePowerLimit then writePpl units (E a) f b val cpus (S a)
      else FeaturedMSR.writeFeature (E a) (f.feature b) val cpus (S a)
    (fun x => if x = a then R else S x, r)

/-- Read a feature of an object. Simplification: features which are converted to Watts, seconds or megahertz (RaplPowerUnit,
PackagePowerLimit, PackagePowerInfo) are read as numbers. Models: pepclibs/msr/_FeaturedMSR.py:193-228 `read_feature()`. -/
def readFeature (m : Module) (f : Finfo) (cpus : List Nat) (S : Regs) : Except Exn (List (Nat × Val)) :=
  match f.bits with
  | none => .error (if cpus.all f.supported then .pyTypeError else .notSupported)
  | some b =>
    if m = .pcStateConfigCtl ∧ f.name = "pkg_cstate_limit".toList then
      (Verif.PCStateConfigCtl.readLimit (f.feature b) cpus (S m.regaddr)).map (List.map fun p => (p.1, .str p.2))
    else FeaturedMSR.readFeature (f.feature b) cpus (S m.regaddr)

end Verif.MSRFeatures
