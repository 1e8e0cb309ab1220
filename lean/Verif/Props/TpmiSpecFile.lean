import Verif.Lemmas.TpmiSpecFile
import Verif.Props.Tpmi

/-!
C89: what is made of a TPMI spec file.
-/

namespace Verif.Tpmi

/-- C89. A spec file is accepted only if it defines registers as documented: exactly the documented keys,
upper case names, offsets which are multiples of 4, widths 32 or 64, bits as "<high>:<low>" with high ≥ low.
What is loaded are those registers in the order of the file, and the bit fields extract and replace exactly the
bits of the definition. -/
theorem C89_accepted (y : Yaml) (fd : Dict PyStr SpecReg) (h : formatFdict y = .ok fd) :
    ∃ regs, Says y regs ∧ Each RegMeans regs fd := by
  unfold formatFdict at h
  split at h
  · cases h
  split at h
  · cases h
  next d hd =>
  obtain ⟨rfl, hk⟩ := hasKeys_of_check.1 hd
  split at h
  · cases h
  next v hv =>
  split at h
  · cases h
  next rl hrl =>
  have := items_ok.1 hrl
  subst this
  obtain ⟨Ds, h1, h2⟩ := formatRegs_sound h
  exact ⟨Ds, ⟨d, rl, rfl, hk, getKey_ok.1 hv, h1⟩, h2⟩

/-- C89. Every such file is accepted. -/
theorem C89_accepts (y : Yaml) (regs : List RegDef) (h : Says y regs) :
    ∃ fd, formatFdict y = .ok fd ∧ Each RegMeans regs fd := by
  obtain ⟨d, rl, rfl, hk, hr, hD⟩ := h
  obtain ⟨rs, hrs, hm⟩ := formatRegs_complete hD
  refine ⟨rs, ?_, hm⟩
  have hk : HasKeys d [kName, kDesc, kFid, kRegisters] := hk
  have hr : d.get? kRegisters = some (.dict rl) := hr
  unfold formatFdict
  rw [hasRegisters_ok hr]
  dsimp only
  rw [hasKeys_of_check.2 ⟨rfl, hk⟩]
  dsimp only
  rw [getKey_ok.2 hr]
  dsimp only
  rw [items_ok.2 rfl]
  exact hrs

/-- C89. "<high>:<low>" in decimal means bits high to low. -/
theorem C89_bits (hi lo : Nat) (h : lo ≤ hi) : BitsText (PyStr.ofNat hi ++ ':' :: PyStr.ofNat lo) hi lo := by
  refine ⟨PyStr.ofNat hi, PyStr.ofNat lo, ?_, ?_, ?_, h⟩
  · rw [PyStr.splitC_append (PyStr.ofNat_not_mem hi (by decide)),
      PyStr.splitC_of_not_mem (PyStr.ofNat_not_mem lo (by decide))]
    simp [PyStr.ofNat_ne_nil]
  · exact Trivial.strToInt_ofNat hi
  · exact Trivial.strToInt_ofNat lo

/-- C89. The register definitions are as C48 and C49 need them: registers of an accepted file have 32 or 64 bits. -/
theorem C89_width (y : Yaml) (fd : Dict PyStr SpecReg) (h : formatFdict y = .ok fd) (e : PyStr × SpecReg) (he : e ∈ fd) :
    (e.2.width = 32 ∨ e.2.width = 64) ∧ e.2.offset % 4 = 0 ∧ Upper e.1 := by
  obtain ⟨regs, ⟨d, rl, -, -, -, hs⟩, hm⟩ := C89_accepted y fd h
  clear h
  induction regs generalizing rl fd with
  | nil =>
    cases fd with
    | nil => cases he
    | cons _ _ => exact hm.elim
  | cons D Ds ih =>
    cases fd with
    | nil => exact hm.elim
    | cons e' fd =>
      cases rl with
      | nil => exact hs.elim
      | cons r rl =>
        obtain ⟨⟨h1, h2, h3, -⟩, hm'⟩ := hm
        obtain ⟨⟨-, hu, d', fl, -, -, -, h4, -, hw, -, -⟩, hs'⟩ := hs
        rcases List.mem_cons.1 he with rfl | he
        · rw [h1, h2, h3]
          exact ⟨hw, h4, hu⟩
        · exact ih fd he hm' rl hs'

/-! ### A concrete file -/

/-- A bit field of a spec file. -/
def exBf (name bits : String) : PyStr × Yaml :=
  (name.toList, .dict [("bits".toList, .str bits.toList), ("desc".toList, .str "Some bits".toList)])

/-- A register of a spec file. -/
def exRegY (name : String) (offset width : Int) (fields : List (PyStr × Yaml)) : PyStr × Yaml :=
  (name.toList, .dict [("fields".toList, .dict fields), ("offset".toList, .int offset), ("width".toList, .int width)])

/-- A spec file. -/
def exFile (name : String) (fid : Int) (regs : List (PyStr × Yaml)) : Yaml :=
  .dict [("name".toList, .str name.toList), ("desc".toList, .str "Some feature".toList), ("feature-id".toList, .int fid),
    ("registers".toList, .dict regs)]

/-- A loaded register: name, offset, width, and the bit fields with shifts and masks. -/
structure LoadedReg where
  name : String
  offset : Int
  width : Nat
  fields : List (String × Nat × Nat)
  deriving DecidableEq

/-- What was loaded. -/
def loaded (y : Yaml) : Except Exn (List LoadedReg) :=
  match formatFdict y with
  | .error e => .error e
  | .ok fd => .ok (fd.map fun e =>
    ⟨String.ofList e.1, e.2.offset, e.2.width, e.2.fields.map fun f => (String.ofList f.1, f.2.shift, f.2.mask)⟩)

example : loaded (exFile "uncore" 2 [exRegY "UFS_STATUS" 8 64 [exBf "CURRENT_RATIO" "6:0", exBf "BUSY" "7:7"]]) =
    .ok [⟨"UFS_STATUS", 8, 64, [("CURRENT_RATIO", 0, 0x7f), ("BUSY", 7, 0x80)]⟩] := by
  decide +kernel

/-- The file of the example defines a register in the sense of the specification. -/
example : Says (exFile "uncore" 2 [exRegY "UFS_STATUS" 8 64 [exBf "CURRENT_RATIO" "6:0", exBf "BUSY" "7:7"]])
    [⟨"UFS_STATUS".toList, 8, 64, [⟨"CURRENT_RATIO".toList, 6, 0⟩, ⟨"BUSY".toList, 7, 7⟩]⟩] := by
  have hk2 : ∀ a b : Yaml, HasKeys [("bits".toList, a), ("desc".toList, b)] ["bits".toList, "desc".toList] :=
    fun _ _ _ => Iff.rfl
  have hb6 : BitsText "6:0".toList 6 0 := ⟨"6".toList, "0".toList, by decide +kernel, by decide +kernel, by decide +kernel, by decide⟩
  have hb7 : BitsText "7:7".toList 7 7 := ⟨"7".toList, "7".toList, by decide +kernel, by decide +kernel, by decide +kernel, by decide⟩
  refine ⟨_, _, rfl, fun _ => Iff.rfl, rfl, ⟨rfl, ⟨⟨'U', by decide +kernel, by decide⟩, by decide +kernel⟩, _, _, rfl,
    fun _ => Iff.rfl, rfl, by decide, rfl, .inr rfl, rfl, ⟨rfl, ⟨⟨'C', by decide +kernel, by decide⟩, by decide +kernel⟩,
      _, _, _, rfl, hk2 _ _, rfl, ?_, rfl, hb6⟩, ⟨rfl, ⟨⟨'B', by decide +kernel, by decide⟩,
      by decide +kernel⟩, _, _, _, rfl, hk2 _ _, rfl, ?_, rfl, hb7⟩, trivial⟩, trivial⟩
  · show '\n' ∉ "Some bits".toList
    decide +kernel
  · show '\n' ∉ "Some bits".toList
    decide +kernel

/-- Bad files are refused: a name in lower case, an offset which is not a multiple of 4, a width of 16, reversed
bits, an additional key. -/
example : loaded (exFile "x" 2 [exRegY "Status" 8 64 []]) = .error .error ∧
    loaded (exFile "x" 2 [exRegY "STATUS" 6 64 []]) = .error .error ∧
    loaded (exFile "x" 2 [exRegY "STATUS" 8 16 []]) = .error .error ∧
    loaded (exFile "x" 2 [exRegY "STATUS" 8 64 [exBf "A" "0:3"]]) = .error .error ∧
    loaded (.dict [("name".toList, .other), ("desc".toList, .other), ("feature-id".toList, .other),
      ("registers".toList, .dict []), ("extra".toList, .other)]) = .error .error := by
  decide +kernel

/-- Bit fields outside of the register and overlapping ones are accepted, though no value of the register has the
former, and writing one of the latter changes the other one. -/
theorem C89_fields_counterexample :
    loaded (exFile "x" 2 [exRegY "STATUS" 8 32 [exBf "A" "40:33", exBf "B" "7:0", exBf "C" "11:4"]]) =
      .ok [⟨"STATUS", 8, 32, [("A", 33, 0x1fe00000000), ("B", 0, 0xff), ("C", 4, 0xff0)]⟩] := by
  decide +kernel

/-- Negative offsets and overlapping registers are accepted. -/
theorem C89_offset_counterexample :
    loaded (exFile "x" 2 [exRegY "A" (-8) 32 [], exRegY "B" 16 64 [], exRegY "C" 20 32 []]) =
      .ok [⟨"A", -8, 32, []⟩, ⟨"B", 16, 64, []⟩, ⟨"C", 20, 32, []⟩] := by
  decide +kernel

/-- The bits without quotes (YAML 1.1 reads 7:0 as the number 420) and a negative bit number are not reported as
errors of the file: Python exceptions escape. -/
theorem C89_crash_counterexample :
    loaded (exFile "x" 2 [exRegY "A" 8 32 [("F".toList, .dict [("bits".toList, .int 420), ("desc".toList, .str [])])]]) =
      .error .pyAttributeError ∧
    loaded (exFile "x" 2 [exRegY "A" 8 32 [exBf "F" "3:-1"]]) = .error .pyValueError := by
  decide +kernel

end Verif.Tpmi
