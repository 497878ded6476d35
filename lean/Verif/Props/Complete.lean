import Verif.Proofs.Complete
import Verif.Props.World
import Verif.Props.Status
import Verif.Props.Terminal

/-!
# C99: the answer to every request
-/

namespace Pemv

open Spec

/-- **C99.** The program reports the answer the specification gives. The one exception: if the answer has a line that has
to be indented by more than 255 tabs, a build with overflow checks panics. -/
theorem c99_answers (m : Machine) (ops : CliOps) (masks : List Char) (sort : Bool) (op : Operation) (s : Text)
    (hs : selected ops = some (op, s)) (hm : Fits m s.length) (rep : Except Text (List Line))
    (h : Answer masks sort op s rep) :
    (m.overflowChecks = false ∨ Indentable rep → Reports (run m ops masks sort) rep) ∧
    (m.overflowChecks = true → ¬ Indentable rep → (run m ops masks sort).disp.panicked = true) := by
  rw [run_eq, hs]
  exact answer_outcome h hm

example := c99_answers .debug64 { tvr := some "zz".toList } ['*'] true .tvr _ rfl (by unfold Fits; decide +kernel) _
  (.hex _ (by decide))

/-- **C99.** Every request has an answer, and only one. -/
theorem c99_determined (masks : List Char) (sort : Bool) (op : Operation) (s : Text) :
    ∃ rep, Answer masks sort op s rep ∧ ∀ rep', Answer masks sort op s rep' → rep' = rep := by
  obtain ⟨rep, h⟩ := answer_exists masks sort op s
  exact ⟨rep, h, fun _ h' => answer_unique h' h⟩

/-- **C99.** So does every block of data: it is read in one way, or there is one reason why it cannot be. -/
theorem c99_read (masks : List Char) (op : Operation) (s : Text) (h : op ∈ [Operation.autoTlv, .berTlv, .ingenicoTlv]) :
    ∃ x, BlockReads masks op s x ∧ ∀ y, BlockReads masks op s y → y = x := by
  obtain ⟨x, hx⟩ := blockReads_exists masks s h
  exact ⟨x, hx, fun _ hy => blockReads_unique hy hx⟩

example := c99_read ['*'] .autoTlv "5A 01 12".toList (by decide)

/-- **C99.** The other way round: what the program reports is the answer, and it panics in no other case. -/
theorem c99_only (m : Machine) (ops : CliOps) (masks : List Char) (sort : Bool) (op : Operation) (s : Text)
    (hs : selected ops = some (op, s)) (hm : Fits m s.length) :
    (∀ msg, Fails (run m ops masks sort) msg ↔ Answer masks sort op s (.error msg)) ∧
    (∀ cells, Succeeds (run m ops masks sort) cells ↔ ∃ ls, Answer masks sort op s (.ok ls) ∧
      (m.overflowChecks = false ∨ Indentable (.ok ls)) ∧ cells = showLines 0 ls) ∧
    ((run m ops masks sort).disp.panicked = true ↔
      m.overflowChecks = true ∧ ∃ ls, Answer masks sort op s (.ok ls) ∧ ¬ Indentable (.ok ls)) := by
  obtain ⟨rep, h⟩ := answer_exists masks sort op s
  have hr := c99_answers m ops masks sort op s hs hm
  have hc : ∀ rep, (m.overflowChecks = false ∨ Indentable rep) ∨ (m.overflowChecks = true ∧ ¬ Indentable rep) := by
    intro rep
    by_cases hi : Indentable rep
    · exact Or.inl (Or.inr hi)
    · cases ho : m.overflowChecks with
      | false => exact Or.inl (Or.inl rfl)
      | true => exact Or.inr ⟨rfl, hi⟩
  refine ⟨fun msg => ⟨fun hf => ?_, fun ha => (hr _ ha).1 (Or.inr trivial)⟩, fun cells => ⟨fun hc' => ?_, ?_⟩,
    ⟨fun hp => ?_, fun ⟨ho, ls, ha, hi⟩ => (hr _ ha).2 ho hi⟩⟩
  · rcases hc rep with hi | ⟨ho, hi⟩
    · have hrep := (hr _ h).1 hi
      cases rep with
      | ok ls =>
        have := hrep.stderr
        rw [hf.stderr] at this
        cases this
      | error msg' =>
        rw [fails_unique hf hrep]
        exact h
    · have := (hr _ h).2 ho hi
      rw [hf.returns] at this
      cases this
  · rcases hc rep with hi | ⟨ho, hi⟩
    · have hrep := (hr _ h).1 hi
      cases rep with
      | ok ls => exact ⟨ls, h, hi, shows_cells_unique hc'.shows hrep.shows⟩
      | error msg' =>
        have := hrep.stderr
        rw [hc'.stderr] at this
        cases this
    · have := (hr _ h).2 ho hi
      rw [hc'.shows.returns] at this
      cases this
  · rintro ⟨ls, ha, hi, rfl⟩
    exact (hr _ ha).1 hi
  · rcases hc rep with hi | ⟨ho, hi⟩
    · have hrep := (hr _ h).1 hi
      cases rep with
      | ok ls =>
        have := hrep.shows.returns
        rw [hp] at this
        cases this
      | error msg' =>
        have := hrep.returns
        rw [hp] at this
        cases this
    · cases rep with
      | ok ls => exact ⟨ho, ls, h, hi⟩
      | error msg => exact absurd trivial hi

/-- **C99.** From the command line, the environment and the files to the terminal: the process ends with status 0, and
what is seen on the terminal is the answer, or nothing where the answer is a message on standard error. With the one
exception, it ends with status 101. -/
theorem c99_process (lib : Library) (m : Machine) (w : World) (hu : Unambiguous w.vars) (content : Option Text)
    (hf : FileIs w content) (profile : String) (hp : ProfileIs w profile) (env : Dict)
    (he : ∀ k, VariableIs lib w.vars k (env k)) (file : FigData)
    (hfile : match content with | none => file = fun _ _ => none | some text => lib.toml text = some file)
    (us : List Use) (ts : List Text) (hw : AllWritten us ts) (hargs : w.args = ts ∨ w.args = ts ++ ["--".toList])
    (gs : List Given) (hne : us ≠ []) (h : us.mapM understand = some gs) (hh : .help ∉ gs) (hv : .version ∉ gs)
    (hc : Consistent gs) (value : Dict)
    (hvalue : ∀ k, value k =
      firstOf [settingsGiven gs k, env k, file "global" k, file profile k, file "default" k, builtIn k])
    (colour : ColourChoice) (masks : List Char) (sort : Bool) (v1 : value .cliColour = some (.colour colour))
    (v2 : value .maskingCharacters = some (.chars masks)) (v3 : value .sortParsedTags = some (.bool sort))
    (op : Operation) (s : Text) (ho : (operationsOf gs).head? = some (op, s)) (hm : Fits m s.length)
    (rep : Except Text (List Line)) (ha : Answer masks sort op s rep) :
    ∃ r, runProcess lib m w = .ran (.ok ((colour.changeBasedOnTty w.isTty).toTerm, r)) ∧
      (m.overflowChecks = true → ¬ Indentable rep → exitStatus lib m w = 101) ∧
      (m.overflowChecks = false ∨ Indentable rep → exitStatus lib m w = 0 ∧ match rep with
      | .error msg => r.stderr = some (msg ++ ['\n']) ∧ ∀ t, stdoutOf t ((colour.changeBasedOnTty w.isTty).toTerm, r) = []
      | .ok ls => r.stderr = none ∧ ∀ t,
        ((colour.changeBasedOnTty w.isTty).toTerm.coloured t = true →
          shownOn (stdoutOf t ((colour.changeBasedOnTty w.isTty).toTerm, r)) = showLines 0 ls ∧
          leftIn (stdoutOf t ((colour.changeBasedOnTty w.isTty).toTerm, r)) = plainStyle) ∧
        ((colour.changeBasedOnTty w.isTty).toTerm.coloured t = false →
          stdoutOf t ((colour.changeBasedOnTty w.isTty).toTerm, r) = (showLines 0 ls).map (·.1))) := by
  obtain ⟨ops, hsel, h1, -⟩ := c89_in_force lib m w hu content hf profile hp env he file hfile us ts hw hargs gs hne h hh hv hc
    value hvalue
  have hrun := h1 colour masks sort v1 v2 v3
  obtain ⟨hr, hp⟩ := c99_answers m ops masks sort op s (hsel.trans ho) hm rep ha
  refine ⟨_, hrun, fun h1 h2 => ?_, fun hi => ?_⟩
  · rw [exitStatus, hrun]
    simp only [hp h1 h2, if_true]
  · replace hr := hr hi
    cases rep with
    | error msg =>
      refine ⟨c94_data_errors lib m w _ _ msg hrun hr, hr.stderr, fun t => ?_⟩
      rw [stdoutOf, hr.stdout]
      rfl
    | ok ls =>
      exact ⟨(c94_status_partial lib m w).1 _ _ _ hrun hr, hr.stderr,
        fun t => c82_success t _ _ m ops masks sort rfl _ hr⟩

/-- A template with two objects inside, one of them masked. -/
example : Answer ['*'] false .berTlv "70075001415A022A2A".toList (.ok (blockLines true
    [.mk ⟨[0x70], classOf [0x70], .constructed, .normal [0x50, 1, 0x41, 0x5A, 2, 0x2A, 0x2A]⟩
      [.mk ⟨[0x50], classOf [0x50], .primitive, .normal [0x41]⟩ [], .mk ⟨[0x5A], classOf [0x5A], .primitive, .masked⟩ []]])) := by
  have h1 : IsBlock [⟨[0x50], [1], [0x41]⟩, ⟨[0x5A], [2], [0x2A, 0x2A]⟩] := by
    refine ⟨?_, fun e he => ?_⟩
    · simp only [List.mem_cons, List.not_mem_nil, or_false, forall_eq_or_imp, forall_eq]
      exact ⟨⟨.low _ (by decide), .short 1 (by decide)⟩, ⟨.low _ (by decide), .short 2 (by decide)⟩⟩
    · cases he
      exact fun h => absurd h.1 (by decide)
  have h2 : IsBlock [⟨[0x70], [7], concat [⟨[0x50], [1], [0x41]⟩, ⟨[0x5A], [2], [0x2A, 0x2A]⟩]⟩] := by
    refine ⟨?_, fun e he => ?_⟩
    · simp only [List.mem_cons, List.not_mem_nil, or_false, forall_eq]
      exact ⟨.low _ (by decide), .short 7 (by decide)⟩
    · cases he
      exact fun h => absurd h.1 (by decide)
  have e : hexBytes "70075001415A022A2A".toList = concat [⟨[0x70], [7], concat [⟨[0x50], [1], [0x41]⟩, ⟨[0x5A], [2], [0x2A, 0x2A]⟩]⟩] := by
    decide +kernel
  rw [← List.nil_append (blockLines true _)]
  refine Answer.block (f := none) (b := _) (.ber ?_) ((c34_ok_iff _).1 ?_) (show Arranged false _ _ from rfl)
  case refine_2 => exact ⟨_, rfl⟩
  rw [e]
  have d1 : dataOf [0x2A, 0x2A] ['*'] = .masked := by
    rw [dataOf, if_pos]
    exact ⟨by decide, '*', by decide, by decide +kernel⟩
  have d2 : dataOf [0x41] ['*'] = .normal [0x41] := by
    rw [dataOf, if_neg]
    rintro ⟨-, c, h, h'⟩
    rw [List.mem_singleton.1 h] at h'
    exact absurd (h' 'A' (by decide +kernel)) (by decide)
  have d3 : dataOf (concat [⟨[0x50], [1], [0x41]⟩, ⟨[0x5A], [2], [0x2A, 0x2A]⟩]) ['*'] =
      .normal (concat [⟨[0x50], [1], [0x41]⟩, ⟨[0x5A], [2], [0x2A, 0x2A]⟩]) := by
    rw [dataOf, if_neg]
    rintro ⟨-, c, h, h'⟩
    rw [List.mem_singleton.1 h] at h'
    exact absurd (h' 'A' (by decide +kernel)) (by decide)
  have i1 : ObjectsOf ['*'] [⟨[0x50], [1], [0x41]⟩, ⟨[0x5A], [2], [0x2A, 0x2A]⟩]
      [.mk ⟨[0x50], classOf [0x50], .primitive, .normal [0x41]⟩ [], .mk ⟨[0x5A], classOf [0x5A], .primitive, .masked⟩ []] := by
    have h := ObjectsOf.cons (masks := ['*']) ⟨[0x50], [1], [0x41]⟩ (by rw [d2]; exact .primitive _ _ rfl)
      (.cons ⟨[0x5A], [2], [0x2A, 0x2A]⟩ (by rw [d1]; exact .masked _) .nil)
    rw [d1, d2] at h
    exact h
  have i2 := ObjectsOf.cons (masks := ['*']) ⟨[0x70], [7], concat [⟨[0x50], [1], [0x41]⟩, ⟨[0x5A], [2], [0x2A, 0x2A]⟩]⟩
    (by rw [d3]; exact .template _ rfl h1 i1) .nil
  rw [d3] at i2
  exact .block h2 i2

/-- There are answers that are too deep, for texts of at most 3100 characters. -/
example : ∃ s ls, s.length ≤ 3100 ∧ Answer ['*'] true .berTlv s (.ok ls) ∧ ¬ Indentable (.ok ls) := by
  obtain ⟨s, hl, hp, -⟩ := c55_false ['*'] true
  obtain ⟨-, ls, h1, h2⟩ := (c99_only .debug64 { berTlv := some s } ['*'] true .berTlv s rfl (c16_fits_64 rfl _ (by omega))).2.2.1 hp
  exact ⟨s, ls, hl, h1, h2⟩

/-- A value of a wrong size. -/
example : FirstFault [.mk ⟨[0x5A], classOf [0x5A], .primitive, .masked⟩ [], .mk ⟨[0x95], classOf [0x95], .primitive, .normal [0]⟩ []]
    (.byteCountIncorrect .eq 5 1) :=
  (firstFault_iff _ _).1 rfl

/-- A length that is too long, after an object. -/
example : Answer [] true .berTlv "500141 5A85".toList (.error (message .unsupported)) := by
  refine .unreadable (.berError (.tooLong ⟨[⟨[0x50], [1], [0x41]⟩], [0x5A], 0x85, [], by decide +kernel, ?_, .low _ (by decide),
    by decide⟩))
  simp only [List.mem_cons, List.not_mem_nil, or_false, forall_eq]
  exact ⟨.low _ (by decide), .short 1 (by decide)⟩

/-- Requests of the other kinds. -/
example : Answer [] true .autoTlv [] (.error (message .unrecognised)) ∧
    Answer [] true .serviceCode "1000".toList (.error (message .invalidNumber)) ∧
    Answer [] true .tvr "zz".toList (.error (message (.byteCountIncorrect .eq 5 0))) := by
  refine ⟨.unreadable (.autoError (Or.inl rfl)), .noServiceCode ?_, ?_⟩
  · rintro ⟨n, h, hn⟩
    have e := (c07_u16 _ n).2 h
    have e' : parseStrToU16 "1000".toList = .ok 1000 := by decide +kernel
    rw [e'] at e
    cases e
    omega
  · have := Answer.hex (masks := []) (sort := true) "zz".toList (op := .tvr) (by decide)
    exact this

/-- A process with a setting from a variable and one from a file: the Transaction Status Information appears on a
terminal. -/
example : ∃ (lib : Library) (w : World), w.args = ["--tsi".toList, "E800".toList] ∧ exitStatus lib .debug64 w = 0 ∧
    ∃ r, runProcess lib .debug64 w = .ran (.ok (.always, r)) ∧ r.stderr = none ∧
      ∀ t, shownOn (stdoutOf t (.always, r)) = showLines 0 (bitLines tsiItems tsiLabels [0xE8, 0x00] true) := by
  let file : FigData := fun section_ k =>
    if section_ = "test" then (match k with | .cliColour => some (.colour .always) | _ => none) else none
  let lib : Library := ⟨fun _ => some file, fun _ v => .bool (v = "true".toList)⟩
  let w : World := ⟨["--tsi".toList, "E800".toList],
    [("PEMV_SORT_PARSED_TAGS".toList, "false".toList), ("PEMV_PROFILE".toList, " test".toList)], [['a'], ['b']],
    fun _ _ => some [], fun _ => none, true⟩
  have hu : Unambiguous w.vars := by
    intro name hn v v' h h'
    rw [hasVariable_iff _ _ hn] at h h'
    obtain ⟨n, h1, h2⟩ := h
    obtain ⟨n', h1', h2'⟩ := h'
    have a : uncased "PEMV_SORT_PARSED_TAGS".toList = "pemv_sort_parsed_tags".toList := by decide +kernel
    have b : uncased "PEMV_PROFILE".toList = "pemv_profile".toList := by decide +kernel
    have c : "pemv_sort_parsed_tags".toList ≠ "pemv_profile".toList := by decide +kernel
    simp only [w, List.mem_cons, Prod.mk.injEq, List.not_mem_nil, or_false] at h1 h1'
    rcases h1 with ⟨rfl, rfl⟩ | ⟨rfl, rfl⟩ <;> rcases h1' with ⟨rfl, rfl⟩ | ⟨rfl, rfl⟩
    · rfl
    · exact absurd (a.symm.trans (h2.trans (h2'.symm.trans b))) c
    · exact absurd (a.symm.trans (h2'.trans (h2.symm.trans b))) c
    · rfl
  have hf : FileIs w (some []) := by
    rw [configFile_iff w hu]
    decide +kernel
  have hp : ProfileIs w "test" := by
    rw [profile_iff w hu]
    decide +kernel
  have he : ∀ k, VariableIs lib w.vars k ((fun k => match k with | .sortParsedTags => some (.bool false) | _ => none : Dict) k) := by
    intro k
    rw [envDict_eq lib w.vars hu]
    cases k <;> decide +kernel
  have hd : ∀ v ∈ ["E800".toList], StandsAlone v := fun v hv => by
    rcases List.mem_singleton.1 hv with rfl
    exact Or.inr (by decide +kernel)
  have ha : Answer ['*'] false .tsi "E800".toList (.ok (bitLines tsiItems tsiLabels [0xE8, 0x00] true)) := by
    have h := Answer.hex (masks := ['*']) (sort := false) (op := .tsi) "E800".toList (by decide)
    have e : hexBytes "E800".toList = [0xE8, 0x00] := by decide +kernel
    rw [e] at h
    exact h
  obtain ⟨r, h1, -, h2⟩ := c99_process lib .debug64 w hu (some []) hf "test" hp _ he file rfl
    [⟨.long "tsi", ["E800".toList]⟩] _ (.cons (.long "tsi" _ hd) .nil) (Or.inl rfl)
    [.operation .tsi "E800".toList] (by simp) (by decide +kernel) (by simp) (by simp)
    ⟨by decide +kernel, by decide +kernel, by decide +kernel, fun h => by rcases h with h | h | h <;> exact absurd rfl h⟩
    _ (fun _ => rfl) .always ['*'] false (by decide +kernel) (by decide +kernel) (by decide +kernel) .tsi "E800".toList
    (by decide +kernel) (c16_fits_64 rfl _ (by decide +kernel)) _ ha
  obtain ⟨h2, h3, h4⟩ := h2 (Or.inr ((indentable_iff _).2 (flat_not_tooDeep (by omega) (flat_bits _ _ _ _))))
  exact ⟨lib, w, rfl, h2, r, h1, h3, fun t => ((h4 t).1 rfl).1⟩

end Pemv
