import Verif.Model.Bits
import Verif.Model.PropsBase
import Verif.Model.SysFiles

/-!
Model of reading the base, min. operating, max. efficiency and max. turbo frequency of CPUs: the readers
of pepclibs/_CPUFreq.py (the sysfs files, ACPI CPPC, the model-specific registers) and the methods of
pepclibs/PStates.py which use them.
-/

namespace Verif.FreqInfo

open Verif.Bits (BitRange getBits)
open Verif.PropsBase (Gen Mech)

/-- The sysfs files. Different constructors are different paths. Models: pepclibs/_CPUFreq.py:281, 299,
308, 634. -/
inductive Path where
  /-- `cpufreq/policy<n>/base_frequency` -/
  | baseFrequency (cpu : Nat)
  /-- `cpu<n>/cpufreq/bios_limit` -/
  | biosLimit (cpu : Nat)
  /-- `cpufreq/policy<n>/scaling_available_frequencies` -/
  | available (cpu : Nat)
  /-- `cpu<n>/acpi_cppc/<fname>` -/
  | cppc (cpu : Nat) (fname : String)
  deriving DecidableEq

/-- The frequency properties. -/
inductive Kind where
  | base | minOper | maxEff | maxTurbo
  deriving DecidableEq, Repr

/-- The host: the sysfs files, the model-specific registers (by address and CPU), the packages with the
CPUs they have, the CPUs with the "hwp" flag, the P-core CPUs of a hybrid processor (empty for other
processors) with their scaling factor, and what the tables of CPU models say: `platSup` are the supported
fields of `MSR_PLATFORM_INFO`, `trl1` and `trlGrp` the layout of `MSR_TURBO_RATIO_LIMIT`, `fsb` the number
of bits and the codes of `MSR_FSB_FREQ` with the bus clock in Hz (`none` if there is no such register).
`intel` is false for a processor of another vendor, it has none of the registers.
Models: pepclibs/msr/PlatformInfo.py:21-107, pepclibs/msr/TurboRatioLimit.py:24-86,
pepclibs/msr/FSBFreq.py:22-76, 87-99. The bus clock is `int(mhz * 1000000)` for the floating point numbers of the
tables, this is always exactly the number of MHz times 10^6. -/
structure Host where
  files : SysFiles.Files Path
  msr : Nat → Nat → Except Exn Nat
  packages : List (List Nat)
  hwpFlag : Nat → Bool
  pcore : List Nat
  factor : Nat
  intel : Bool
  platSup : Kind → Bool
  trl1 : Bool
  trlGrp : Bool
  fsb : Option (Nat × Dict Int Int)

/-- A loop `for cpu in cpus: yield cpu, f(cpu)`. -/
def readLoop (f : Nat → Except Exn Int) : List Nat → Gen (Nat × Int)
  | [] => ⟨[], none⟩
  | c :: cpus =>
    match f c with
    | .error e => ⟨[], some e⟩
    | .ok v =>
      let g := readLoop f cpus
      ⟨(c, v) :: g.yields, g.err⟩

/-- Nothing is yielded, `ErrorNotSupported` is raised. -/
def unsupported : Gen (Nat × Int) := ⟨[], some .notSupported⟩

/-- A loop over `zip(a, b)` which yields `f`. The first iterator is advanced before the second one.
Simplification: the assertion about the same CPU numbers is an error. -/
def zipLoop (f : Nat → Int → Int → Int) (ea eb : Option Exn) :
    List (Nat × Int) → List (Nat × Int) → Gen (Nat × Int)
  | [], _ => ⟨[], ea⟩
  | _ :: _, [] => ⟨[], eb⟩
  | (c, x) :: as, (d, y) :: bs =>
    if c ≠ d then ⟨[], some .error⟩
    else
      let g := zipLoop f ea eb as bs
      ⟨(c, f c x y) :: g.yields, g.err⟩

/-- See `zipLoop`. -/
def zipGen (f : Nat → Int → Int → Int) (a b : Gen (Nat × Int)) : Gen (Nat × Int) :=
  zipLoop f a.err b.err a.yields b.yields

/-! ### The sysfs files -/

/-- The number in a file, times `mul`. -/
def fileNum (H : Host) (p : Path) (mul : Int) : Except Exn Int :=
  match SysFiles.readInt H.files p with
  | .error e => .error e
  | .ok v => .ok (v * mul)

/-- Models: pepclibs/_CPUFreq.py:295-302 `_get_base_freq_intel_pstate()`. -/
def basePstate (H : Host) (cpus : List Nat) : Gen (Nat × Int) :=
  readLoop (fun c => fileNum H (.baseFrequency c) 1000) cpus

/-- Models: pepclibs/_CPUFreq.py:304-311 `_get_base_freq_bios_limit()`. -/
def baseBios (H : Host) (cpus : List Nat) : Gen (Nat × Int) :=
  readLoop (fun c => fileNum H (.biosLimit c) 1000) cpus

/-- Models: pepclibs/_CPUFreq.py:313-335 `CPUFreqSysfs.get_base_freq()`. -/
def baseSysfs (H : Host) (cpus : List Nat) : Gen (Nat × Int) :=
  let g := basePstate H cpus
  match g.err with
  | none => g
  | some e =>
    if e.isNotSupported then
      let left := cpus.filter fun c => !(g.yields.map (·.1)).contains c
      let g2 := baseBios H left
      ⟨g.yields ++ g2.yields, g2.err⟩
    else g

/-- Put a character in front of the first word, or begin a word with it if the next character is a white
space. -/
def pushChar (c : Char) (next : Option Char) (ws : List PyStr) : List PyStr :=
  match next with
  | none => [c] :: ws
  | some d =>
    if PyStr.isSpace d then [c] :: ws
    else match ws with
      | [] => [[c]]
      | w :: ws => (c :: w) :: ws

/-- The words of a line: `s.split()`. -/
def splitWs : PyStr → List PyStr
  | [] => []
  | c :: s => if PyStr.isSpace c then splitWs s else pushChar c s.head? (splitWs s)

/-- Models: pepclibs/_CPUFreq.py:284-291. -/
def parseFreqs : List PyStr → Except Exn (List Int)
  | [] => .ok []
  | w :: ws =>
    match Trivial.strToInt w with
    | .error _ => .error .error
    | .ok n =>
      match parseFreqs ws with
      | .error e => .error e
      | .ok l => .ok (n * 1000 :: l)

/-- The frequencies of one CPU. Models: pepclibs/_CPUFreq.py:280-293, one iteration of
`get_available_frequencies()`. -/
def available (H : Host) (cpu : Nat) : Except Exn (List Int) :=
  match SysFiles.read H.files (.available cpu) with
  | .error e => .error e
  | .ok val =>
    match parseFreqs (splitWs val) with
    | .error e => .error e
    | .ok l => .ok (sortBy (fun a b => decide (a ≤ b)) l)

/-! ### ACPI CPPC -/

/-- Models: pepclibs/_CPUFreq.py:636-655 `_read_cppc_sysfs_file()`. A file that cannot be read is modelled
as a missing one. -/
def cppcRead (H : Host) (fname : String) (cpu : Nat) : Except Exn Int :=
  match SysFiles.readInt H.files (.cppc cpu fname) with
  | .error _ => .error .notSupported
  | .ok v => if v = 0 then .error .notSupported else .ok v

/-- A frequency, CPPC files use MHz. Models: pepclibs/_CPUFreq.py:668-670, 683-685, 727-729. -/
def cppcHz (H : Host) (fname : String) (c : Nat) : Except Exn Int :=
  match cppcRead H fname c with
  | .error e => .error e
  | .ok v => .ok (v * 1000 * 1000)

/-- Models: pepclibs/_CPUFreq.py:657-685 and 717-729 `get_min_freq_limit()`, `get_max_freq_limit()` and
`get_base_freq()`. -/
def cppcFreq (H : Host) (fname : String) (cpus : List Nat) : Gen (Nat × Int) :=
  readLoop (cppcHz H fname) cpus

/-- Models: pepclibs/_CPUFreq.py:687-715 and 731-742 `get_min_perf_limit()`, `get_max_perf_limit()` and
`get_base_perf()`. -/
def cppcPerf (H : Host) (fname : String) (cpus : List Nat) : Gen (Nat × Int) :=
  readLoop (cppcRead H fname) cpus

/-! ### Model-specific registers -/

/-- Some bits of a register. Models: pepclibs/msr/MSR.py:414-429 `read_bits()`, one CPU. -/
def regField (H : Host) (addr : Nat) (bits : BitRange) (c : Nat) : Except Exn Int :=
  match H.msr addr c with
  | .error e => .error e
  | .ok v => getBits v bits

/-- Models: pepclibs/msr/_FeaturedMSR.py:193-228 `read_feature()` for a feature without named values; `sup`
tells which CPUs support the feature. The register is as seen from every CPU, see C04, C05 and C15. -/
def readFeature (H : Host) (sup : Nat → Bool) (addr : Nat) (bits : BitRange) (cpus : List Nat) :
    Gen (Nat × Int) :=
  if cpus.all sup then
    readLoop (regField H addr bits) cpus
  else unsupported

/-- The code of `MSR_FSB_FREQ` to the bus clock, an unknown code is a `KeyError`.
Models: pepclibs/msr/_FeaturedMSR.py:219-224, "rvals". -/
def decodeFsb (codes : Dict Int Int) (v : Int) : Except Exn Int :=
  match codes.get? v with
  | none => .error .pyKeyError
  | some hz => .ok hz

/-- The bus clock of one CPU. Models: pepclibs/msr/_FeaturedMSR.py:219-228. -/
def fsbClock (H : Host) (width : Nat) (codes : Dict Int Int) (c : Nat) : Except Exn Int :=
  match regField H 0xCD (width - 1, 0) c with
  | .error e => .error e
  | .ok code => decodeFsb codes code

/-- Models: pepclibs/_CPUFreq.py:830-847 `_get_bclks()`. -/
def bclks (H : Host) (cpus : List Nat) : Gen (Nat × Int) :=
  if !H.intel then unsupported
  else match H.fsb with
    | none => readLoop (fun _ => .ok 100000000) cpus
    | some (width, codes) =>
      readLoop (fsbClock H width codes) cpus

/-- Models: pepclibs/_CPUFreq.py:873-897 `_perf_to_freq()`. -/
def perfToFreq (H : Host) (c : Nat) (perf bclk : Int) : Int :=
  if H.pcore.contains c then
    let freq := perf * H.factor
    freq - freq % bclk
  else perf * bclk

/-- The bits of `MSR_PLATFORM_INFO`. The max. turbo frequency is not there.
Models: pepclibs/msr/PlatformInfo.py:73-107. -/
def platBits : Kind → BitRange
  | .base => (15, 8)
  | .maxEff => (47, 40)
  | .minOper => (55, 48)
  | .maxTurbo => (7, 0)

/-- The bits of `MSR_HWP_CAPABILITIES`. Models: pepclibs/msr/HWPCapabilities.py:21-58. -/
def capBits : Kind → BitRange
  | .maxTurbo => (7, 0)
  | .base => (15, 8)
  | .maxEff => (23, 16)
  | .minOper => (31, 24)

/-- Models: pepclibs/_CPUFreq.py:1046-1061 `_get_patinfo_freq()`. -/
def platFreq (H : Host) (k : Kind) (cpus : List Nat) : Gen (Nat × Int) :=
  if cpus.isEmpty then ⟨[], none⟩
  else if !H.intel then unsupported
  else zipGen (fun _ bclk ratio => ratio * bclk) (bclks H cpus)
    (readFeature H (fun _ => H.platSup k) 0xCE (platBits k) cpus)

/-- Whether HWP is supported and enabled. Models: pepclibs/msr/HWPCapabilities.py:89-94. -/
def hwpEnabled (H : Host) (c : Nat) : Except Exn Bool :=
  if H.hwpFlag c then
    match regField H 0x770 (0, 0) c with
    | .error e => .error e
    | .ok b => .ok (decide (b ≠ 0))
  else .ok false

/-- The CPUs of a package do not support the `MSR_HWP_CAPABILITIES` features if the first CPU has no "hwp"
flag, or if HWP is not enabled on it. Models: pepclibs/msr/HWPCapabilities.py:85-98. -/
def unsupportedCpus (H : Host) : List (List Nat) → Except Exn (List Nat)
  | [] => .ok []
  | [] :: _ => .error .pyIndexError
  | (c :: cs) :: pkgs =>
    match hwpEnabled H c with
    | .error e => .error e
    | .ok true => unsupportedCpus H pkgs
    | .ok false =>
      match unsupportedCpus H pkgs with
      | .error e => .error e
      | .ok l => .ok (c :: cs ++ l)

/-- Models: pepclibs/_CPUFreq.py:1063-1078 `_get_hwpcap_freq()`, with the constructor
pepclibs/msr/HWPCapabilities.py:75-103. -/
def capFreq (H : Host) (k : Kind) (cpus : List Nat) : Gen (Nat × Int) :=
  if cpus.isEmpty then ⟨[], none⟩
  else if !H.intel then unsupported
  else match unsupportedCpus H H.packages with
    | .error e => ⟨[], some e⟩
    | .ok uns =>
      zipGen (fun c bclk perf => perfToFreq H c perf bclk) (bclks H cpus)
        (readFeature H (fun c => H.hwpFlag c && !uns.contains c) 0x771 (capBits k) cpus)

/-- Models: pepclibs/_CPUFreq.py:1161-1192 `_get_max_turbo_freq_trl()`. -/
def trlFreq (H : Host) (cpus : List Nat) : Gen (Nat × Int) :=
  if cpus.isEmpty then ⟨[], none⟩
  else if !H.intel || !(H.trl1 || H.trlGrp) then unsupported
  else
    let g := zipGen (fun _ bclk ratio => ratio * bclk) (bclks H cpus)
      (readFeature H (fun _ => H.trl1) 0x1AD (7, 0) cpus)
    match g.err with
    | none => g
    | some e =>
      if e.isNotSupported then
        let g2 := zipGen (fun _ bclk ratio => ratio * bclk) (bclks H cpus)
          (readFeature H (fun _ => H.trlGrp) 0x1AD (7, 0) cpus)
        ⟨g.yields ++ g2.yields, g2.err⟩
      else g

/-- The first loop. Models: pepclibs/_CPUFreq.py:1085-1087. -/
def collect1 : List (Nat × Int) → Dict Nat Int → Dict Nat Int
  | [], d => d
  | (c, f) :: l, d => collect1 l (d.set c f)

/-- The second loop. Models: pepclibs/_CPUFreq.py:1088-1091. -/
def collect2 : List (Nat × Int) → Dict Nat Int → Except Exn (Dict Nat Int)
  | [], d => .ok d
  | (c, f) :: l, d => if (d.get? c).isSome then .error .error else collect2 l (d.set c f)

/-- `result[cpu]`. Models: pepclibs/_CPUFreq.py:1094. -/
def lookup (d : Dict Nat Int) (c : Nat) : Except Exn Int :=
  match d.get? c with
  | none => .error .pyKeyError
  | some v => .ok v

/-- Models: pepclibs/_CPUFreq.py:1080-1094 `_get_from_2_iterators()`. -/
def from2 (cpus : List Nat) (a b : Gen (Nat × Int)) : Gen (Nat × Int) :=
  match a.err with
  | some e => ⟨[], some e⟩
  | none =>
    match collect2 b.yields (collect1 a.yields []) with
    | .error e => ⟨[], some e⟩
    | .ok d =>
      match b.err with
      | some e => ⟨[], some e⟩
      | none => readLoop (lookup d) cpus

/-- The CPUs without HWP. Models: pepclibs/_CPUFreq.py:1123, 1140, 1157, 1207. -/
def legFreq (H : Host) (k : Kind) (cpus : List Nat) : Gen (Nat × Int) :=
  match k with
  | .maxTurbo => trlFreq H cpus
  | k => platFreq H k cpus

/-- Models: pepclibs/_CPUFreq.py:1110-1160 and 1194-1210 `CPUFreqMSR.get_base_freq()`,
`get_min_oper_freq()`, `get_max_eff_freq()`, `get_max_turbo_freq()`, and 1096-1108 `_split_cpus()`. -/
def msrFreq (H : Host) (k : Kind) (cpus : List Nat) : Gen (Nat × Int) :=
  let leg := cpus.filter fun c => !H.hwpFlag c
  let hwp := cpus.filter fun c => H.hwpFlag c
  from2 cpus (legFreq H k leg) (capFreq H k hwp)

/-! ### The properties -/

/-- The loop over the mechanisms, `ErrorNotSupported` is raised if there is no mechanism left.
Models: pepclibs/_PropsClassBase.py:519-560 with `raise_not_supported=True`, 562-572
`_get_prop_cpus_mnames()`. -/
def tryMnames (get : Mech → Gen (Nat × Int)) : List Mech → Gen (Nat × Int)
  | [] => unsupported
  | m :: ms =>
    let g := get m
    match g.err with
    | none => g
    | some e =>
      if e.isNotSupported then
        if g.yields.isEmpty then tryMnames get ms else ⟨g.yields, some .error⟩
      else g

/-- Models: pepclibs/PStates.py:434-454 `_get_base_freq()`, 372-374. -/
def getBase (H : Host) (cpus : List Nat) : Mech → Gen (Nat × Int)
  | .sysfs => baseSysfs H cpus
  | .msr => msrFreq H .base cpus
  | .cppc => cppcFreq H "nominal_freq" cpus
  | _ => ⟨[], some .error⟩

/-- The base frequency, see the "mnames" of the property. Models: pepclibs/PStates.py:94-101, 388. -/
def baseAny (H : Host) (cpus : List Nat) : Gen (Nat × Int) := tryMnames (getBase H cpus) [.sysfs, .msr, .cppc]

/-- The loop over the three zipped iterators. Python's `//` rounds down; a zero nominal performance is never
yielded, see `cppcRead`. Models: pepclibs/PStates.py:396-398. -/
def scaleLoop (e1 e2 e3 : Option Exn) :
    List (Nat × Int) → List (Nat × Int) → List (Nat × Int) → Gen (Nat × Int)
  | [], _, _ => ⟨[], e1⟩
  | _ :: _, [], _ => ⟨[], e2⟩
  | _ :: _, _ :: _, [] => ⟨[], e3⟩
  | (c, base) :: as, (_, nominal) :: bs, (_, perf) :: cs =>
    let g := scaleLoop e1 e2 e3 as bs cs
    ⟨(c, Int.fdiv (base * perf) nominal) :: g.yields, g.err⟩

/-- The performance values as frequencies. Models: pepclibs/PStates.py:385-398. -/
def cppcScaled (H : Host) (perfName : String) (cpus : List Nat) : Gen (Nat × Int) :=
  let b := baseAny H cpus
  let n := cppcPerf H "nominal_perf" cpus
  let p := cppcPerf H perfName cpus
  scaleLoop b.err n.err p.err b.yields n.yields p.yields

/-- Models: pepclibs/PStates.py:364-398 `_get_cppc_freq()` for "max_turbo_freq" and "min_oper_freq". -/
def cppcLimit (H : Host) (freqName perfName : String) (cpus : List Nat) : Gen (Nat × Int) :=
  let g := cppcFreq H freqName cpus
  match g.err with
  | none => g
  | some e =>
    if e.isNotSupported then
      let g2 := cppcScaled H perfName cpus
      ⟨g.yields ++ g2.yields, g2.err⟩
    else g

/-- Models: pepclibs/PStates.py:346-353, 400-454 `_get_max_eff_freq()`, `_get_min_oper_freq()`,
`_get_max_turbo_freq()`, `_get_base_freq()`, and 694-716. -/
def getFreq (H : Host) (k : Kind) (m : Mech) (cpus : List Nat) : Gen (Nat × Int) :=
  match k, m with
  | .base, m => getBase H cpus m
  | .maxEff, _ => msrFreq H .maxEff cpus
  | .minOper, .msr => msrFreq H .minOper cpus
  | .minOper, .cppc => cppcLimit H "lowest_freq" "lowest_perf" cpus
  | .maxTurbo, .msr => msrFreq H .maxTurbo cpus
  | .maxTurbo, .cppc => cppcLimit H "highest_freq" "highest_perf" cpus
  | _, _ => ⟨[], some .error⟩

/-- Models: pepclibs/PStates.py:94-101, 110-133. -/
def freqProp (k : Kind) : PropsBase.PropDesc where
  mnames := match k with
    | .base => [.sysfs, .msr, .cppc]
    | .minOper => [.msr, .cppc]
    | .maxEff => [.msr]
    | .maxTurbo => [.msr, .cppc]
  sname := some (.lvl .CPU)
  iosname := .lvl .CPU
  writable := false

/-- Every yielded value is a value (not `None`). -/
def someVals (g : Gen (Nat × Int)) : Gen (Nat × Option Int) := ⟨g.yields.map fun p => (p.1, some p.2), g.err⟩

/-- `PStates.get_prop_cpus()` for the frequency properties. Models: pepclibs/_PropsClassBase.py:583-621 with
pepclibs/PStates.py:694-716. -/
def getProp (i : CPUInfo.Info) (H : Host) (k : Kind) (cpus : CPUInfo.Nums) (mnames : Option (List Mech)) :
    Gen (PropsBase.PVInfo Nat Int) :=
  PropsBase.getPropCpus i (freqProp k) (fun m l => someVals (getFreq H k m l)) cpus mnames

end Verif.FreqInfo
