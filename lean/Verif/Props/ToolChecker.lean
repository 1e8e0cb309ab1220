import Verif.Lemmas.ToolChecker

/-!
C112: when a program is not installed, the user is told which package to install.
-/

namespace Verif.ToolChecker

open Spec PyStr

/-- **C112** (OS information): whatever the lines of the os-release file are, the ID and the name are those which the
last such lines give, quoted or not; /etc/os-release is used if the other file does not exist or says nothing. -/
theorem C112_os (h : Host) (ls : List Line) (ho : Os h ls) :
    (getOsid h []).2 = .ok ((valueOf "ID".toList ls).getD "<unknown_OS_ID>".toList) ∧
      (getOsname h []).2 = .ok (nameOf ls) := by
  obtain ⟨d, hd, _, hk⟩ : ∃ d, readOsRelease h = .ok d ∧ d ≠ [] ∧ ∀ key, d.get? key = valueOf key ls := by
    rcases ho with ⟨h1, h2⟩ | ⟨h1, h2, h3⟩
    · exact read_usr h1 h2
    · exact read_etc h1 h2 h3
  obtain ⟨o1, _, e1⟩ := osid_eq (h := h) (o := []) (.inl rfl)
  obtain ⟨o2, _, e2⟩ := osname_eq (h := h) (o := []) (.inl rfl)
  rw [e1, e2]
  unfold idRes nameRes nameOf
  rw [hd]
  dsimp only
  rw [hk, hk]
  refine ⟨rfl, ?_⟩
  cases valueOf "NAME".toList ls with
  | some n => rfl
  | none =>
    cases valueOf "ID".toList ls with
    | none => rfl
    | some i => cases i <;> rfl

/-- No line of such a file is complained about. -/
theorem C112_quiet (ls : List Line) (h : ∀ l ∈ ls, l.Good) : (parseLines (ls.map Line.text) []).2 = [] :=
  (parse_lines h []).1

/-- **C112** (no OS information): the ID and the name are unknown, and nothing fails. -/
theorem C112_no_os (h : Host) (ho : NoOs h) :
    (getOsid h []).2 = .ok "<unknown_OS_ID>".toList ∧ (getOsname h []).2 = .ok "<unknown_OS_NAME>".toList := by
  obtain ⟨o1, _, e1⟩ := osid_eq (h := h) (o := []) (.inl rfl)
  obtain ⟨o2, _, e2⟩ := osname_eq (h := h) (o := []) (.inl rfl)
  rw [e1, e2]
  unfold idRes nameRes
  rw [read_none ho.1 ho.2]
  exact ⟨rfl, rfl⟩

/-- **C112** (package names): the package is that of the table, for every OS and for every program. -/
theorem C112_package (h : Host) (os tool : PyStr) (ho : os ≠ []) :
    (toolToPkg h [] tool (some os)).2 = .ok (package os tool) := by
  rw [toolToPkg_given tool ho]

/-- **C112** (package names, the OS of the host). -/
theorem C112_package_host (h : Host) (ls : List Line) (tool : PyStr) (ho : Os h ls) :
    (toolToPkg h [] tool none).2 = .ok ((valueOf "ID".toList ls).bind (package · tool)) := by
  obtain ⟨o1, _, e1⟩ := osid_eq (h := h) (o := []) (.inl rfl)
  obtain ⟨o, _, e⟩ := toolToPkg_auto (h := h) (o := []) (.inl rfl) tool (osid := none) (.inl rfl)
  have hid : idRes h = .ok ((valueOf "ID".toList ls).getD "<unknown_OS_ID>".toList) := by
    rw [← (C112_os h ls ho).1, e1]
  rw [e]
  unfold pkgRes
  rw [hid]
  show Except.ok (package ((valueOf "ID".toList ls).getD "<unknown_OS_ID>".toList) tool) = _
  cases valueOf "ID".toList ls with
  | some i => rfl
  | none => exact congrArg _ (package_unknown tool)

/-- **C112** (any sequence of calls): what the object remembers does not change what a call returns. -/
theorem C112_calls (h : Host) (ops : List Op) : run h [] ops = ops.map fun op => (step h [] op).2 :=
  run_eq (.inl rfl) ops

/-- **C112** (tools which are there): the path is returned. -/
theorem C112_check_found (h : Host) (tool path : PyStr) (hw : h.which tool = some path) (hp : path ≠ []) :
    (checkTool h [] tool).2 = .path path := by
  unfold checkTool
  rw [hw]
  cases path with
  | nil => exact absurd rfl hp
  | cons c p => rfl

/-- **C112** (tools which are missing): `ErrorNotFound`, with the package of the OS of the host if the table has it. -/
theorem C112_check_missing (h : Host) (ls : List Line) (dir name : PyStr) (ho : Os h ls)
    (hw : h.which (dir ++ name) = none) (hd : dir = [] ∨ dir.getLast? = some '/') (hn : '/' ∉ name) :
    (checkTool h [] (dir ++ name)).2 =
      .missing (((valueOf "ID".toList ls).bind (package · name)).map fun pkg => (nameOf ls, pkg)) := by
  obtain ⟨o, _, e⟩ := checkTool_eq (h := h) (o := []) (.inl rfl) (dir ++ name)
  obtain ⟨o1, _, e1⟩ := osid_eq (h := h) (o := []) (.inl rfl)
  obtain ⟨o2, _, e2⟩ := osname_eq (h := h) (o := []) (.inl rfl)
  have hid : idRes h = .ok ((valueOf "ID".toList ls).getD "<unknown_OS_ID>".toList) := by
    rw [← (C112_os h ls ho).1, e1]
  have hname : nameRes h = .ok (nameOf ls) := by
    rw [← (C112_os h ls ho).2, e2]
  rw [e]
  unfold checkRes
  rw [hw, hid, hname, lastPart_of hd hn]
  dsimp only
  cases valueOf "ID".toList ls with
  | some i =>
    show (match package i name with
      | none => Check.missing none
      | some pkg => Check.missing (some (nameOf ls, pkg))) = Check.missing ((package i name).map _)
    cases package i name <;> rfl
  | none =>
    rw [show (none : Option PyStr).getD "<unknown_OS_ID>".toList = "<unknown_OS_ID>".toList from rfl,
      package_unknown name]
    rfl

/-- The name of the program is found in the command. -/
theorem name_of {c : Command} (hc : c.Good) : ∃ w l, FreqInfo.splitWs c.text = w :: l ∧ lastPart w = c.tool := by
  obtain ⟨h1, h2, h3, h4, h5, h6⟩ := hc
  have hne : c.dir ++ c.tool ≠ [] := by simp [h4]
  obtain ⟨l, hl⟩ := splitWs_word hne h5 h6
  refine ⟨_, l, ?_, lastPart_of h2 h3⟩
  unfold Command.text
  rw [List.append_assoc, splitWs_blank h1, hl]

/-- The text of the suggestion. -/
theorem what_eq (h : Host) (tool : PyStr) :
    ∃ os, whatText (suggestPkg h tool) tool = suggestion os tool ∧
      (∀ ls, Os h ls → os = valueOf "ID".toList ls) := by
  have of : ∀ os : Option PyStr, suggestPkg h tool = os.bind (package · tool) →
      whatText (suggestPkg h tool) tool = suggestion os tool := by
    intro os e
    unfold suggestion whatText
    rw [e]
    cases hb : os.bind (package · tool) with
    | none => rfl
    | some pkg =>
      cases pkg with
      | nil =>
        cases os with
        | none => cases hb
        | some i => exact absurd rfl (package_ne (show package i tool = some [] from hb))
      | cons c pkg => rfl
  by_cases ho : ∃ ls, Os h ls
  · obtain ⟨ls, ho⟩ := ho
    refine ⟨valueOf "ID".toList ls, of _ ?_, fun ls' ho' => ?_⟩
    · have := C112_package_host h ls tool ho
      unfold suggestPkg
      rw [this]
    · have h1 := C112_os h ls ho
      have hd : ∀ {ls}, Os h ls → ∃ d, readOsRelease h = .ok d ∧ d ≠ [] ∧ ∀ key, d.get? key = valueOf key ls := by
        intro ls ho
        rcases ho with ⟨h1, h2⟩ | ⟨h1, h2, h3⟩
        · exact read_usr h1 h2
        · exact read_etc h1 h2 h3
      obtain ⟨d, e1, _, k1⟩ := hd ho
      obtain ⟨d', e2, _, k2⟩ := hd ho'
      rw [e1] at e2
      cases e2
      rw [← k1, ← k2]
  · refine ⟨?_, ?_⟩
    · exact match pkgRes h tool, idRes h with
        | .error _, _ => none
        | .ok _, .ok id => some id
        | .ok _, .error _ => none
    · refine ⟨of _ ?_, fun ls hl => absurd ⟨ls, hl⟩ ho⟩
      rw [suggestPkg_eq]
      unfold pkgRes
      cases idRes h <;> rfl

/-- **C112** (the message): the exception is `ErrorNotFound`; the message has the command and the error as it was
reported, and suggests the package which has the program on the OS of the host, or the program if that is not known. -/
theorem C112_message (h : Host) (ls : List Line) (c : Command) (x : Char) (err : PyStr) (ho : Os h ls) (hc : c.Good)
    (hx : isSpace x = false) :
    commandNotFound h c.text (some (x :: err)) none =
        .ok (message h.hostmsg c.text ("The error is:\n".toList ++ indented (x.toUpper :: err))
          (suggestion (valueOf "ID".toList ls) c.tool)) ∧
      commandNotFound h c.text none none =
        .ok (message h.hostmsg c.text "Command not found".toList (suggestion (valueOf "ID".toList ls) c.tool)) := by
  obtain ⟨w, l, h1, h2⟩ := name_of hc
  obtain ⟨os, h3, h4⟩ := what_eq h c.tool
  rw [← h4 ls ho]
  constructor
  · unfold commandNotFound
    rw [h1]
    dsimp only
    rw [h2, h3, show errText (some (x :: err)) = "The error is:\n".toList ++ indent2 (x :: err) ++ "\n".toList from rfl,
      indent2_eq hx]
    unfold message indented
    rw [show "\nTry to install the ".toList = "\n".toList ++ "Try to install the ".toList from rfl]
    simp only [List.append_assoc]
  · unfold commandNotFound
    rw [h1]
    dsimp only
    rw [h2, h3, show errText none = "Command not found\n".toList from rfl]
    unfold message
    rw [show "\nTry to install the ".toList = "\n".toList ++ "Try to install the ".toList from rfl,
      show "Command not found\n".toList = "Command not found".toList ++ "\n".toList from rfl]
    simp only [List.append_assoc]

/-- **C112** (nothing hides the problem): whatever the host answers, and even if reading the files fails with any
exception, the result is `ErrorNotFound` about the command. Missing for the full claim: a command without a program
(see `C112_blank_counterexample`). -/
theorem C112_always_partial (h : Host) (c : Command) (err : Option PyStr) (hc : c.Good) :
    ∃ os error, commandNotFound h c.text err none = .ok (message h.hostmsg c.text error (suggestion os c.tool)) := by
  obtain ⟨w, l, h1, h2⟩ := name_of hc
  obtain ⟨os, h3, -⟩ := what_eq h c.tool
  have split : ∃ e, errText err = e ++ "\n".toList := by
    rcases err with _ | (_ | ⟨x, m⟩)
    · exact ⟨"Command not found".toList, rfl⟩
    · exact ⟨"Command not found".toList, rfl⟩
    · exact ⟨"The error is:\n".toList ++ indent2 (x :: m), rfl⟩
  obtain ⟨e, he⟩ := split
  refine ⟨os, e, ?_⟩
  unfold commandNotFound
  rw [h1]
  dsimp only
  rw [h2, h3, he]
  unfold message
  rw [show "\nTry to install the ".toList = "\n".toList ++ "Try to install the ".toList from rfl]
  simp only [List.append_assoc]

/-! ### Satisfiability -/

instance (s : PyStr) : Decidable (Blank s) := inferInstanceAs (Decidable (∀ c ∈ s, PyStr.isSpace c = true))

instance (s : PyStr) : Decidable (Value s) := inferInstanceAs (Decidable (∀ c ∈ s, c ≠ '=' ∧ c ≠ '"'))

/-- A Fedora host. -/
def fedora : List Line :=
  [⟨[], .comment " the OS".toList, "\n".toList⟩, ⟨[], .quoted "NAME".toList "Fedora Linux".toList, "\n".toList⟩,
    ⟨[], .blank, "\n".toList⟩, ⟨[], .plain "ID".toList "fedora".toList, "\n".toList⟩]

/-- The host: only /etc/os-release exists. -/
def fedoraHost : Host where
  read p := if p = "/etc/os-release".toList then (fedora.map Line.text, none) else ([], some .notFound)
  which _ := none
  hostmsg := " on host 'box'".toList

theorem fedora_good : ∀ l ∈ fedora, l.Good := by
  intro l hl
  rcases hl with _ | ⟨_, _ | ⟨_, _ | ⟨_, _ | ⟨_, hl⟩⟩⟩⟩
  · exact ⟨fun c hc => absurd hc List.not_mem_nil, (by decide), trivial⟩
  · exact ⟨fun c hc => absurd hc List.not_mem_nil, (by decide), ⟨(by decide), (by decide)⟩, (by decide)⟩
  · exact ⟨fun c hc => absurd hc List.not_mem_nil, (by decide), trivial⟩
  · exact ⟨fun c hc => absurd hc List.not_mem_nil, (by decide), ⟨(by decide), (by decide)⟩, (by decide), (by decide)⟩
  · cases hl

theorem fedora_os : Os fedoraHost fedora := by
  refine .inr ⟨.inl ⟨.notFound, ?_, by decide⟩, ⟨?_, fedora_good⟩, "ID".toList, "fedora".toList, by decide +kernel⟩
  · show (if "/usr/lib/os-release".toList = "/etc/os-release".toList then (fedora.map Line.text, none) else
      ([], some Exn.notFound)) = _
    exact if_neg (by decide)
  · show (if "/etc/os-release".toList = "/etc/os-release".toList then (fedora.map Line.text, none) else
      ([], some Exn.notFound)) = _
    exact if_pos rfl

example : (getOsname fedoraHost []).2 = .ok "Fedora Linux".toList :=
  (C112_os fedoraHost fedora fedora_os).2.trans (by decide +kernel)

example : (toolToPkg fedoraHost [] "lspci".toList none).2 = .ok (some "pciutils".toList) :=
  (C112_package_host fedoraHost fedora "lspci".toList fedora_os).trans (by decide +kernel)

example : (checkTool fedoraHost [] "/usr/sbin/modprobe".toList).2 =
    .missing (some ("Fedora Linux".toList, "kmod".toList)) :=
  (C112_check_missing fedoraHost fedora "/usr/sbin/".toList "modprobe".toList fedora_os rfl (.inr (by decide))
    (by decide)).trans (by decide +kernel)

/-- The command 'lspci -D'. -/
def lspci : Command := ⟨[], "/usr/bin/".toList, "lspci".toList, " -D".toList⟩

theorem lspci_good : lspci.Good :=
  ⟨fun c hc => absurd hc List.not_mem_nil, .inr (by decide), (by decide), (by decide), (by decide), (by decide)⟩

example : commandNotFound fedoraHost lspci.text none none = .ok
    ("cannot execute the following command on host 'box':\n  /usr/bin/lspci -D\nCommand not found\n" ++
      "Try to install the 'pciutils' OS package on host 'box'").toList :=
  (C112_message fedoraHost fedora lspci 'x' [] fedora_os lspci_good (by decide)).2.trans (by decide +kernel)

/-- Reading fails with an exception which is not an `Error`. -/
def brokenHost : Host := ⟨fun _ => ([], some .pyTypeError), fun _ => none, []⟩

example : ∃ os error, commandNotFound brokenHost lspci.text none none =
    .ok (message [] lspci.text error (suggestion os lspci.tool)) :=
  C112_always_partial brokenHost lspci none lspci_good

/-- A host without the files. -/
def bareHost : Host := ⟨fun _ => ([], some .notFound), fun _ => none, []⟩

example : (getOsname bareHost []).2 = .ok "<unknown_OS_NAME>".toList :=
  (C112_no_os bareHost ⟨.inl ⟨.notFound, rfl, by decide⟩, .inl ⟨.notFound, rfl, by decide⟩⟩).2

/-! ### Where the code differs from what is expected -/

/-- A command without a program (white space only): an `IndexError` instead of `ErrorNotFound`. -/
theorem C112_blank_counterexample : commandNotFound fedoraHost " ".toList none none = .error .pyIndexError := by
  decide +kernel

/-- /etc/os-release is used only if /usr/lib/os-release does not exist: the precedence is the other way round than
os-release(5) has it. -/
theorem C112_precedence_counterexample :
    ∃ h : Host, File h "/etc/os-release" [⟨[], .plain "ID".toList "debian".toList, []⟩] ∧
      (getOsid h []).2 = .ok "fedora".toList := by
  refine ⟨⟨fun p => if p = "/etc/os-release".toList then (["ID=debian".toList], none) else
    (["ID=fedora".toList], none), fun _ => none, []⟩, ⟨rfl, ?_⟩, by decide +kernel⟩
  intro l hl
  rcases hl with _ | ⟨_, hl⟩
  · exact ⟨fun c hc => absurd hc List.not_mem_nil, fun c hc => absurd hc List.not_mem_nil,
      ⟨(by decide), (by decide)⟩, (by decide), (by decide)⟩
  · cases hl

/-- Single quotes, which os-release(5) permits, are taken as a part of the value: no package is suggested. A value with
'=' is lost (with a warning). -/
theorem C112_quotes_counterexample :
    ∃ h : Host, h.read "/usr/lib/os-release".toList = (["ID='fedora'\n".toList, "NAME=\"a=b\"\n".toList], none) ∧
      (toolToPkg h [] "lspci".toList none).2 = .ok none ∧ (getOsname h []).2 = .ok "'fedora'".toList := by
  refine ⟨⟨fun _ => (["ID='fedora'\n".toList, "NAME=\"a=b\"\n".toList], none), fun _ => none, []⟩, rfl, ?_, ?_⟩ <;>
    decide +kernel

end Verif.ToolChecker
