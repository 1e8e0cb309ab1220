import Verif.Model.PMQoSRestore
import Verif.Props.PMQoSCmd
import Verif.Props.RestoreCmd

/-!
Lemmas for C100.
-/

namespace Verif.PMQoSRestore

open PyStr
open CPUInfo OpTarget
open Human (Flt)
open HumanPrint (Val Sys)
open PropsBase (Mech PropDesc)
open PropsTarget (readCpus)
open PropsCmd (Contract Host Reading PlainFor)
open PMQoS (Files Kernel setLoop writeInt)
open PMQoSCmd (Env latency globalLatency desc_cases toUs readCpu)

/-- The text in the file. -/
def hw (p : PyStr) (F : Files) (c : Nat) : Option PyStr := if p = latency then F c else none

def rd (E : Env) (p : PyStr) (_ : Mech) (_ : Nat) (x : Option PyStr) : Except Exn (Option (Val Flt)) :=
  readCpu E p (x.map strip)

/-- What is right after setting. -/
def Right (E : Env) (p : PyStr) (_ : Nat) (v : Val Flt) (x : Option PyStr) : Prop :=
  p = latency ∧ ∃ f us t, v = .num f ∧ toUs E.fl f = .ok us ∧ x = some t ∧ strip t = ofInt us

/-- The invariant: `F0` tells which files there are. -/
def Inv (F0 F : Files) : Prop := ∀ c, (F c).isSome = (F0 c).isSome

/-- Every file has its old text, or what the kernel stored. -/
theorem setLoop_each (K : Kernel) (us : Int) (l : List Nat) (F : Files) (c : Nat) :
    (setLoop K true us l F).1 c = F c ∨
    (c ∈ l ∧ F c ≠ none ∧ ∃ t, K c (ofInt us) = .ok t ∧ (setLoop K true us l F).1 c = some t) := by
  induction l generalizing F with
  | nil => exact .inl rfl
  | cons d l ih =>
    unfold setLoop writeInt
    cases hd : F d with
    | none => exact .inl rfl
    | some old =>
      dsimp only
      cases hk : K d (ofInt us) with
      | error e => exact .inl rfl
      | ok t =>
        dsimp only
        have one : (if c = d then some t else F c) = F c ∨
            (c ∈ d :: l ∧ F c ≠ none ∧ ∃ t', K c (ofInt us) = .ok t' ∧ (if c = d then some t else F c) = some t') := by
          by_cases h : c = d
          · subst h
            exact .inr ⟨List.mem_cons_self, by rw [hd]; exact nofun, t, hk, if_pos rfl⟩
          · exact .inl (if_neg h)
        by_cases hv : True ∧ strip t ≠ ofInt us
        · rw [if_pos (by simpa using hv)]
          exact one
        · rw [if_neg (by simpa using hv)]
          dsimp only
          rcases ih (fun c => if c = d then some t else F c) with h | ⟨h1, h2, t', h3, h4⟩
          · rcases one with g | ⟨g1, g2, t', g3, g4⟩
            · exact .inl (h.trans g)
            · exact .inr ⟨g1, g2, t', g3, h.trans g4⟩
          · refine .inr ⟨List.mem_cons_of_mem _ h1, ?_, t', h3, h4⟩
            by_cases h : c = d
            · rw [h, hd]; exact nofun
            · rw [if_neg h] at h2; exact h2

/-- Setting works if the kernel stores the number. -/
theorem setLoop_works (K : Kernel) (us : Int) (l : List Nat) (F : Files) (hF : ∀ c ∈ l, F c ≠ none)
    (hK : ∀ c ∈ l, ∃ t, K c (ofInt us) = .ok t ∧ strip t = ofInt us) : (setLoop K true us l F).2 = .ok () := by
  induction l generalizing F with
  | nil => rfl
  | cons d l ih =>
    obtain ⟨t, h1, h2⟩ := hK d List.mem_cons_self
    unfold setLoop writeInt
    cases hd : F d with
    | none => exact absurd hd (hF d List.mem_cons_self)
    | some old =>
      dsimp only
      rw [h1]
      dsimp only
      rw [if_neg (by simpa using h2)]
      refine ih _ (fun c hc => ?_) fun c hc => hK c (List.mem_cons_of_mem _ hc)
      split
      · exact nofun
      · exact hF c (List.mem_cons_of_mem _ hc)

/-- Setting: what happens. -/
theorem set_cases (E : Env) (p : PyStr) (m : Mech) (v : Val Flt) (l : List Nat) (F : Files) :
    ((set E p m v l F).1 = F ∧ (set E p m v l F).2 ≠ .ok ()) ∨
    (p = latency ∧ ∃ f us, v = .num f ∧ toUs E.fl f = .ok us ∧ set E p m v l F = setLoop E.K true us l F) := by
  unfold set
  by_cases h : p = latency
  · rw [if_pos h]
    cases v with
    | num f =>
      dsimp only
      cases hu : toUs E.fl f with
      | error e => exact .inl ⟨rfl, nofun⟩
      | ok us => exact .inr ⟨h, f, us, rfl, hu, rfl⟩
    | _ => exact .inl ⟨rfl, nofun⟩
  · rw [if_neg h]
    exact .inl ⟨rfl, nofun⟩

theorem set_other (E : Env) (p : PyStr) (m : Mech) (v : Val Flt) (l : List Nat) (F : Files) (c : Nat)
    (h : p ≠ latency ∨ c ∉ l) : (set E p m v l F).1 c = F c := by
  rcases set_cases E p m v l F with ⟨k, -⟩ | ⟨hp, f, us, -, -, k⟩
  · rw [k]
  · rw [k]
    rcases setLoop_each E.K us l F c with g | ⟨g, -⟩
    · exact g
    · rcases h with h | h
      · exact absurd hp h
      · exact absurd g h

theorem set_inv (E : Env) (p : PyStr) (m : Mech) (v : Val Flt) (l : List Nat) {F0 F : Files} (h : Inv F0 F) :
    Inv F0 (set E p m v l F).1 := by
  intro c
  rcases set_cases E p m v l F with ⟨k, -⟩ | ⟨-, f, us, -, -, k⟩
  · rw [k]; exact h c
  · rw [k]
    rcases setLoop_each E.K us l F c with g | ⟨-, g2, t, -, g⟩
    · rw [g]; exact h c
    · rw [← h c, g]
      cases hc : F c with
      | none => exact absurd hc g2
      | some x => rfl

theorem rd_eq (E : Env) (p : PyStr) (m : Mech) (F : Files) (c : Nat) :
    rd E p m c (hw p F c) = PMQoSCmd.rd E p m c (PMQoSCmd.hw p (PMQoSCmd.init F) c) := by
  unfold rd hw PMQoSCmd.rd PMQoSCmd.hw
  by_cases h : p = latency
  · rw [if_pos h, if_pos h]; rfl
  · rw [if_neg h, if_neg h]; rfl

theorem get_eq (E : Env) (F : Files) (p : PyStr) (m : Mech) (l : List Nat) :
    get E F p m l = readCpus (fun c => rd E p m c (hw p F c)) l := by
  have key : ∀ c, readCpu E p ((F c).map strip) = rd E p m c (hw p F c) := by
    intro c
    unfold rd hw
    by_cases h : p = latency
    · rw [if_pos h]
    · rw [if_neg h]
      unfold readCpu
      rw [if_neg h, if_neg h]
  induction l with
  | nil => rfl
  | cons c l ih =>
    unfold get readCpus
    rw [key, ih]
    cases rd E p m c (hw p F c) <;> rfl

/-- The class keeps the contract. -/
theorem contract (i : Info) (wf : WF i) (E : Env) : Contract i (cls E) (fun _ => True) (Right E) hw hw (rd E) where
  loc := by
    intro p P (hP : PMQoSCmd.desc p = some P)
    have hsame : ∀ c m v l F, (p ≠ latency ∨ c ∉ l) → hw p (set E p m v l F).1 c = hw p F c := by
      intro c m v l F h
      unfold hw
      rw [set_other E p m v l F c h]
    refine ⟨?_, ?_⟩
    · intro m v l F hl c h
      show (hw p (set E p m v l F).1 c, hw p (set E p m v l F).1 c) = (hw p F c, hw p F c)
      rw [hsame c m v l F]
      rcases desc_cases hP with ⟨-, rfl⟩ | ⟨h0, -, -⟩
      · exact .inr fun hc => h c hc (PropsBase.sameUnit_refl wf (hl c hc) _)
      · exact .inl h0
    · intro m v l F _ hok d hd c hs
      show Right E p c v (hw p (set E p m v l F).1 c)
      rcases set_cases E p m v l F with ⟨-, h⟩ | ⟨rfl, f, us, h1, h2, h3⟩
      · exact absurd hok h
      · rcases desc_cases hP with ⟨-, rfl⟩ | ⟨h0, -, -⟩
        · obtain rfl := PMQoSCmd.same_cpu hs
          have hok' : (setLoop E.K true us l F).2 = .ok () := by rw [← h3]; exact hok
          obtain ⟨t, k1, k2⟩ := (PMQoS.setLoop_spec E.K us l F _ true _ rfl).2.1 rfl hok' d hd
          refine ⟨rfl, f, us, t, h1, h2, ?_, k2⟩
          rw [h3]
          unfold hw
          rw [if_pos rfl, k1]
        · exact absurd rfl h0
  others := by
    intro p q m v l F hpq
    have : hw q (set E p m v l F).1 = hw q F := by
      funext c
      unfold hw
      by_cases hq : q = latency
      · rw [if_pos hq, if_pos hq]
        exact set_other E p m v l F c (.inl fun hp => hpq (hp.trans hq.symm))
      · rw [if_neg hq, if_neg hq]
    exact ⟨this, this⟩
  get := fun F _ p m l => get_eq E F p m l
  start := fun _ _ => ⟨rfl, rfl⟩
  commit := fun _ _ _ _ => ⟨rfl, rfl⟩
  keeps := fun _ _ _ _ _ => ⟨rfl, rfl⟩
  inv := fun _ _ => ⟨trivial, trivial, fun _ _ _ _ _ => trivial⟩
  unit := by
    intro p P m F c d hP _ h
    rcases desc_cases hP with ⟨-, rfl⟩ | ⟨h0, -, -⟩
    · rw [PMQoSCmd.same_cpu h]
    · unfold rd hw
      rw [if_neg h0, if_neg h0]
  type := by
    intro p pi m c x v hp hv
    exact (PMQoSCmd.contract i wf E fun _ => none).type p pi m c (x.map strip, 0) v hp hv
  scopes := (PMQoSCmd.contract i wf E fun _ => none).scopes
  table := (PMQoSCmd.contract i wf E fun _ => none).table

/-- What is read is what is to be shown. -/
theorem reading_shown {E : Env} {F : Files} {p : PyStr} {c : Nat} {v : Option (Val Flt)} {m : PyStr}
    (h : Reading (cls E) (rd E) (fun p c => hw p F c) none p c v m) : PMQoSCmd.Shown E F p c v := by
  have h' : Reading (PMQoSCmd.cls E) (PMQoSCmd.rd E) (fun p c => PMQoSCmd.hw p (PMQoSCmd.init F) c) none p c v m := by
    obtain ⟨P, hP, h1, h2⟩ := h
    refine ⟨P, hP, h1, fun hs => ?_⟩
    obtain ⟨mech, e, hsh⟩ := h2 hs
    refine ⟨mech, e, ?_⟩
    have : (fun m c => rd E p m c (hw p F c)) = fun m c => PMQoSCmd.rd E p m c (PMQoSCmd.hw p (PMQoSCmd.init F) c) := by
      funext m c
      exact rd_eq E p m F c
    rw [← this]
    exact hsh
  exact (PMQoSCmd.reading_shown h').1

theorem uniform {E : Env} {T : Nat → Prop} {F0 F : Files} (h : PMQoSCmd.Uniform T F0) (hF : Inv F0 F) :
    PropsCmd.Uniform T (rd E) fun p c => hw p F c := by
  intro p m c d hc hd hr
  dsimp only at hr ⊢
  rw [rd_eq] at hr ⊢
  exact PMQoSCmd.uniform (s := PMQoSCmd.init F) h ⟨List.nodup_nil, hF⟩ p m c d hc hd hr

theorem plainFor {E : Env} {i : Info} {a : OpTarget.Args} (hm : a.modSib ≠ [] → ModulesUnique i) (names : List PyStr) :
    PlainFor i a (cls E) names := PMQoSCmd.plainFor (E := E) hm names

theorem keys_nodup (E : Env) : (cls E).props.keys.Nodup := by
  show PMQoSCmd.props.keys.Nodup
  decide +kernel

theorem latency_info (E : Env) : ∃ pi, (cls E).props.get? latency = some pi ∧ pi.writable = true := by
  show ∃ pi, PMQoSCmd.props.get? latency = some pi ∧ pi.writable = true
  exact ⟨_, rfl, rfl⟩

theorem writable_latency {E : Env} {p : PyStr} {pi : HumanPrint.PropInfo} (h : (cls E).props.get? p = some pi)
    (hw : pi.writable = true) : p = latency := by
  have := Dict.mem_of_get? (d := PMQoSCmd.props) h
  simp only [PMQoSCmd.props, List.mem_cons, Prod.mk.injEq, List.not_mem_nil, or_false] at this
  rcases this with ⟨h, -⟩ | ⟨-, h⟩
  · exact h
  · rw [h] at hw; cases hw

theorem norm_flt (E : Env) (f : Flt) : (cls E).norm latency (.num f) = .ok (.num f) := by
  have : (cls E).norm latency = PMQoSCmd.norm E := PMQoSCmd.norm_latency E
  rw [this]; rfl

/-- The number read is the number written. -/
theorem toUs_read {fl : Rat → Rat} (hf : IsRounding fl) {n : Nat} (hn : n ≤ 2 ^ 44) :
    toUs fl (.fin (fl (((n : Nat) : Int) / 1000000))) = .ok (n : Int) := by
  refine PMQoSCmd.toUs_near hf hn ?_
  rw [Int.cast_natCast]
  have hm : Human.Mid ((n : Rat) / 1000000) := by
    by_cases h0 : n = 0
    · left; rw [h0]; norm_num
    · right
      have h1 : (1 : Rat) ≤ n := by exact_mod_cast Nat.one_le_iff_ne_zero.2 h0
      have h2 : (n : Rat) ≤ 17592186044416 := by exact_mod_cast hn
      rw [abs_of_nonneg (by positivity)]
      constructor
      · norm_num; linarith
      · norm_num; linarith
  have := (Human.Approx.refl ((n : Rat) / 1000000)).fl hf (by norm_num) hm
  exact this.mono (by norm_num)

end Verif.PMQoSRestore
