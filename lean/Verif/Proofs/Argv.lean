import Verif.Spec.Argv
import Verif.Proofs.Cli

/-!
# Facts about splitting the arguments
-/

namespace Pemv

open Spec

/-! ### Single arguments -/

theorem splitEquals_none (t : Text) (h : '=' ∉ t) : splitEquals t = (t, none) := by
  induction t with
  | nil => rfl
  | cons c cs ih =>
    rw [List.mem_cons, not_or] at h
    rw [splitEquals, if_neg (fun e => h.1 e.symm), ih h.2]

theorem splitEquals_some (t v : Text) (h : '=' ∉ t) : splitEquals (t ++ '=' :: v) = (t, some v) := by
  induction t with
  | nil => rfl
  | cons c cs ih =>
    rw [List.mem_cons, not_or] at h
    rw [List.cons_append, splitEquals, if_neg (fun e => h.1 e.symm), ih h.2]

/-- An attached value as it is written. -/
def attached : Option Text → Text
  | none => []
  | some v => '=' :: v

theorem splitEquals_inv (t : Text) : t = (splitEquals t).1 ++ attached (splitEquals t).2 := by
  induction t with
  | nil => rfl
  | cons c cs ih =>
    rw [splitEquals]
    by_cases h : c = '='
    · rw [if_pos h, h]; rfl
    · rw [if_neg h]
      exact congrArg (c :: ·) ih

theorem dashes : "--".toList = ['-', '-'] := by decide +kernel

theorem tokenOf_long (n : Text) (hn : n ≠ []) (h : '=' ∉ n) : tokenOf ("--".toList ++ n) = .long n none := by
  rw [dashes]
  cases n with
  | nil => exact absurd rfl hn
  | cons c cs =>
    show Token.long (splitEquals (c :: cs)).1 (splitEquals (c :: cs)).2 = _
    rw [splitEquals_none _ h]

theorem tokenOf_longEquals (n v : Text) (h : '=' ∉ n) : tokenOf ("--".toList ++ n ++ '=' :: v) = .long n (some v) := by
  rw [dashes]
  cases n with
  | nil => rfl
  | cons c cs =>
    show Token.long (splitEquals (c :: cs ++ '=' :: v)).1 (splitEquals (c :: cs ++ '=' :: v)).2 = _
    rw [splitEquals_some _ _ h]

theorem tokenOf_short (c : Char) (cs : Text) (h : c ≠ '-') : tokenOf ('-' :: c :: cs) = .short (c :: cs) := by
  unfold tokenOf
  split <;> first | rfl | skip
  · rename_i e; cases e; exact absurd rfl h
  · rename_i e; cases e; exact absurd rfl h
  · rename_i e; cases e; rfl
  · rename_i e; exact absurd rfl (e _ _)

theorem tokenOf_plain (t : Text) (h : StandsAlone t) : tokenOf t = .plain t := by
  unfold tokenOf
  split
  · rcases h with h | h
    · cases h
    · exact absurd rfl h
  · rcases h with h | h
    · cases h
    · exact absurd rfl h
  · rcases h with h | h
    · cases h
    · exact absurd rfl h
  · rfl

theorem tokenOf_plain_iff (t v : Text) : tokenOf t = .plain v ↔ v = t ∧ StandsAlone t := by
  constructor
  · intro h
    unfold tokenOf at h
    split at h
    · cases h
    · cases h
    · cases h
    · rename_i h1 h2 h3
      cases h
      refine ⟨rfl, ?_⟩
      match t with
      | [] => exact Or.inr (by simp)
      | [c] =>
        by_cases hc : c = '-'
        · rw [hc]; exact Or.inl rfl
        · exact Or.inr (by simp [hc])
      | c :: d :: cs =>
        refine Or.inr ?_
        intro e
        cases e
        exact h3 _ _ rfl
  · rintro ⟨rfl, h⟩
    exact tokenOf_plain _ h

theorem tokenOf_escape (t : Text) (h : tokenOf t = .escape) : t = "--".toList := by
  rw [dashes]
  unfold tokenOf at h
  split at h <;> first | rfl | cases h

theorem tokenOf_long_inv (t n : Text) (v : Option Text) (h : tokenOf t = .long n v) :
    t = "--".toList ++ n ++ attached v := by
  rw [dashes]
  unfold tokenOf at h
  split at h
  · cases h
  · rename_i rest _
    cases h
    exact congrArg (fun x => '-' :: '-' :: x) (splitEquals_inv rest)
  · cases h
  · cases h

theorem tokenOf_short_inv (t cs : Text) (h : tokenOf t = .short cs) : t = '-' :: cs ∧ cs ≠ [] := by
  unfold tokenOf at h
  split at h <;> cases h
  exact ⟨rfl, by simp⟩

/-! ### Names -/

theorem maxArgs_eq (o : Opt) : (argOf o).maxArgs =
    (match o with | .help => some 0 | .version => some 0 | .masking => none | _ => some 1) := by
  cases o with
  | operation op => cases op <;> decide +kernel
  | _ => decide +kernel

theorem takesValue_eq (o : Opt) : takesValue (argOf o) = !(o == .help || o == .version) := by
  cases o with
  | operation op => cases op <;> decide +kernel
  | _ => decide +kernel

theorem mem_of_lookup {n : OptName} {o : Opt} (h : optionNames.lookup n = some o) : (n, o) ∈ optionNames := by
  generalize optionNames = l at h
  induction l with
  | nil => cases h
  | cons p l ih =>
    obtain ⟨a, b⟩ := p
    rw [List.lookup_cons] at h
    by_cases e : n = a
    · subst e
      rw [beq_self_eq_true] at h
      cases h
      exact List.mem_cons_self
    · rw [beq_eq_false_iff_ne.2 e] at h
      exact List.mem_cons_of_mem _ (ih h)

/-- A name as it can be written. -/
def Writable : OptName → Prop
  | .long n => n.toList ≠ [] ∧ '=' ∉ n.toList
  | .short c => c ≠ '-'

instance : DecidablePred Writable := fun n => by
  cases n <;> unfold Writable <;> infer_instance

theorem writable_of_lookup {n : OptName} {o : Opt} (h : optionNames.lookup n = some o) : Writable n :=
  (by decide +kernel : ∀ p ∈ optionNames, Writable p.1) _ (mem_of_lookup h)

theorem lookup_of_understand {u : Use} {g : Given} (h : understand u = some g) :
    optionNames.lookup u.name = some (optOf g) ∧ understandOpt (optOf g) u.values = some g := by
  rw [understand, Option.bind_eq_some_iff] at h
  obtain ⟨o, ho, hg⟩ := h
  have := optOf_understand o _ g hg
  subst this
  exact ⟨ho, hg⟩

/-! ### Reading what is written -/

/-- What comes next is no value. -/
def NoValueNext (rest : List Text) : Prop := ∀ t ∈ rest.head?, ¬ StandsAlone t

/-- An option waiting for values is complete when no value comes next. -/
theorem lex_flush (table : List ArgDef) (p : Pending) (rest : List Text) (h : NoValueNext rest) :
    lexArgs table (some p) rest = (⟨p.name, p.values⟩ :: (lexArgs table none rest).1, (lexArgs table none rest).2) := by
  cases rest with
  | nil => rfl
  | cons t ts =>
    have h' : ¬ StandsAlone t := h t rfl
    rw [lexArgs, lexArgs]
    split
    · rfl
    · rfl
    · rfl
    · rfl
    · rename_i v e
      exact absurd ((tokenOf_plain_iff t v).1 e).2 h'

/-- Values for an option that takes any number of them. -/
theorem lex_values (table : List ArgDef) (p : Pending) (hm : p.max = none) (vs rest : List Text)
    (h : ∀ v ∈ vs, StandsAlone v) :
    lexArgs table (some p) (vs ++ rest) = lexArgs table (some { p with values := p.values ++ vs }) rest := by
  induction vs generalizing p with
  | nil => rw [List.append_nil]; rfl
  | cons v vs ih =>
    rw [List.cons_append, lexArgs, tokenOf_plain v (h v List.mem_cons_self)]
    simp only
    have : addValue p v = ([], some { p with values := p.values ++ [v] }) := by
      rw [addValue, hm]; rfl
    rw [this]
    simp only [List.nil_append]
    rw [ih ⟨p.name, p.max, p.values ++ [v]⟩ hm (fun v hv => h v (List.mem_cons_of_mem _ hv))]
    simp only [List.append_assoc, List.cons_append, List.nil_append]

/-- The value for an option that takes one. -/
theorem lex_value (table : List ArgDef) (n : OptName) (v : Text) (rest : List Text) (h : StandsAlone v) :
    lexArgs table (some ⟨n, some 1, []⟩) (v :: rest) =
      (⟨n, [v]⟩ :: (lexArgs table none rest).1, (lexArgs table none rest).2) := by
  rw [lexArgs, tokenOf_plain v h]
  rfl

/-- From the name of an option on. -/
theorem lex_begin (n : OptName) (g : Given) (vs rest : List Text) (h : understand ⟨n, vs⟩ = some g)
    (hv : ∀ v ∈ vs, StandsAlone v)
    (hr : NoValueNext rest ∨ ((argOf (optOf g)).maxArgs = some 0 ∨ (argOf (optOf g)).maxArgs = some 1 ∧ vs ≠ [])) :
    ((begin cliTable n).1 ++ (lexArgs cliTable (begin cliTable n).2 (vs ++ rest)).1,
      (lexArgs cliTable (begin cliTable n).2 (vs ++ rest)).2) =
    (⟨n, vs⟩ :: (lexArgs cliTable none rest).1, (lexArgs cliTable none rest).2) := by
  obtain ⟨hl, hu⟩ := lookup_of_understand h
  simp only at hl hu
  have hres : resolve cliTable n = some (argOf (optOf g)) := (use_understood _ _ h).1
  rw [begin, hres]
  simp only [takesValue_eq]
  have one : (optOf g == .help || optOf g == .version) = false → (argOf (optOf g)).maxArgs = some 1 → vs.length ≤ 1 →
      ((if (!(optOf g == .help || optOf g == .version)) = true then ([], some ⟨n, (argOf (optOf g)).maxArgs, []⟩)
          else ([⟨n, []⟩], none) : List Use × Option Pending).1 ++
        (lexArgs cliTable (if (!(optOf g == .help || optOf g == .version)) = true then
          ([], some ⟨n, (argOf (optOf g)).maxArgs, []⟩) else ([⟨n, []⟩], none) : List Use × Option Pending).2 (vs ++ rest)).1,
        (lexArgs cliTable (if (!(optOf g == .help || optOf g == .version)) = true then
          ([], some ⟨n, (argOf (optOf g)).maxArgs, []⟩) else ([⟨n, []⟩], none) : List Use × Option Pending).2 (vs ++ rest)).2) =
      (⟨n, vs⟩ :: (lexArgs cliTable none rest).1, (lexArgs cliTable none rest).2) := by
    intro hb hm hlen
    rw [hb]
    simp only [Bool.not_false, if_true, List.nil_append, hm]
    match vs, hlen with
    | [], _ =>
      rcases hr with hr | hr | hr
      · rw [List.nil_append, lex_flush _ _ _ hr]
      · rw [hm] at hr; cases hr
      · exact absurd rfl hr.2
    | [v], _ => exact lex_value _ _ _ _ (hv v List.mem_cons_self)
  have flag : (optOf g == .help || optOf g == .version) = true → vs = [] →
      ((if (!(optOf g == .help || optOf g == .version)) = true then ([], some ⟨n, (argOf (optOf g)).maxArgs, []⟩)
          else ([⟨n, []⟩], none) : List Use × Option Pending).1 ++
        (lexArgs cliTable (if (!(optOf g == .help || optOf g == .version)) = true then
          ([], some ⟨n, (argOf (optOf g)).maxArgs, []⟩) else ([⟨n, []⟩], none) : List Use × Option Pending).2 (vs ++ rest)).1,
        (lexArgs cliTable (if (!(optOf g == .help || optOf g == .version)) = true then
          ([], some ⟨n, (argOf (optOf g)).maxArgs, []⟩) else ([⟨n, []⟩], none) : List Use × Option Pending).2 (vs ++ rest)).2) =
      (⟨n, vs⟩ :: (lexArgs cliTable none rest).1, (lexArgs cliTable none rest).2) := by
    intro hb hvs
    rw [hb, hvs]
    rfl
  generalize ho : optOf g = o at *
  cases o with
  | operation op =>
    refine one rfl (maxArgs_eq _) ?_
    match vs, hu with
    | [v], _ => exact Nat.le_refl 1
    | [], hu => cases hu
    | _ :: _ :: _, hu => cases hu
  | colour =>
    refine one rfl (maxArgs_eq _) ?_
    match vs, hu with
    | [v], _ => exact Nat.le_refl 1
    | [], hu => cases hu
    | _ :: _ :: _, hu => cases hu
  | masking =>
    have hm : (argOf .masking).maxArgs = none := maxArgs_eq _
    have hr' : NoValueNext rest := by
      rcases hr with hr | hr | hr
      · exact hr
      · rw [hm] at hr; cases hr
      · rw [hm] at hr; cases hr.1
    have e : (!((Opt.masking == .help) || (Opt.masking == .version))) = true := rfl
    rw [e]
    simp only [if_true, List.nil_append, hm]
    rw [lex_values _ _ rfl _ _ hv, lex_flush _ _ _ hr']
    rfl
  | sort =>
    refine one rfl (maxArgs_eq _) ?_
    match vs, hu with
    | [v], _ => exact Nat.le_refl 1
    | [], hu => exact Nat.zero_le 1
    | _ :: _ :: _, hu => cases hu
  | noSort =>
    refine one rfl (maxArgs_eq _) ?_
    match vs, hu with
    | [v], _ => exact Nat.le_refl 1
    | [], hu => exact Nat.zero_le 1
    | _ :: _ :: _, hu => cases hu
  | help =>
    refine flag rfl ?_
    match vs, hu with
    | [], _ => rfl
    | _ :: _, hu => cases hu
  | version =>
    refine flag rfl ?_
    match vs, hu with
    | [], _ => rfl
    | _ :: _, hu => cases hu

theorem shortCluster_one (c : Char) : shortCluster cliTable [c] = begin cliTable (.short c) := rfl

theorem attached_understood (n : OptName) (v : Text) (g : Given) (h : understand ⟨n, [v]⟩ = some g) :
    takesValue (argOf (optOf g)) = true := by
  obtain ⟨hl, hu⟩ := lookup_of_understand h
  rw [takesValue_eq]
  generalize optOf g = o at *
  cases o <;> first | rfl | cases hu

/-- Reading one use. -/
theorem lex_written (u : Use) (ts rest : List Text) (g : Given) (h : understand u = some g) (hw : WrittenAs u ts)
    (hr : NoValueNext rest ∨ ((argOf (optOf g)).maxArgs = some 0 ∨ (argOf (optOf g)).maxArgs = some 1 ∧ u.values ≠ [])) :
    lexArgs cliTable none (ts ++ rest) = (u :: (lexArgs cliTable none rest).1, (lexArgs cliTable none rest).2) := by
  have hwr := writable_of_lookup (lookup_of_understand h).1
  cases hw with
  | long n vs hv =>
    rw [List.cons_append, lexArgs, tokenOf_long _ hwr.1 hwr.2]
    simp only [String.ofList_toList, flush, List.nil_append]
    exact lex_begin (.long n) g vs rest h hv hr
  | longEquals n v =>
    rw [List.cons_append, List.nil_append, lexArgs, tokenOf_longEquals _ _ hwr.2]
    simp only [String.ofList_toList, flush, List.nil_append]
  | short c vs hv =>
    rw [List.cons_append, lexArgs, tokenOf_short _ _ hwr]
    simp only [shortCluster_one, flush, List.nil_append]
    exact lex_begin (.short c) g vs rest h hv hr
  | shortAttached c v h1 h2 =>
    rw [List.cons_append, List.nil_append, lexArgs, tokenOf_short _ _ hwr]
    have hres : resolve cliTable (.short c) = some (argOf (optOf g)) := (use_understood _ _ h).1
    cases v with
    | nil => exact absurd rfl h1
    | cons d v =>
      have e : attachedValue (d :: v) = d :: v := by
        unfold attachedValue
        split
        · rename_i e; cases e; exact absurd rfl h2
        · rfl
      simp only [shortCluster, hres, attached_understood _ _ _ h, if_true, e, flush]
      rfl
  | shortEquals c v =>
    rw [List.cons_append, List.nil_append, lexArgs, tokenOf_short _ _ hwr]
    have hres : resolve cliTable (.short c) = some (argOf (optOf g)) := (use_understood _ _ h).1
    simp only [shortCluster, hres, attached_understood _ _ _ h, if_true, flush]
    rfl

/-- What is written for a use begins with a hyphen. -/
theorem written_begins (u : Use) (ts rest : List Text) (hw : WrittenAs u ts) : NoValueNext (ts ++ rest) := by
  have dash : ∀ (c : Char) (t : Text), ¬ StandsAlone ('-' :: c :: t) := by
    intro c t h
    rcases h with h | h
    · cases h
    · exact h rfl
  cases hw <;> intro t ht <;> cases ht <;> (try rw [dashes]) <;> exact dash _ _

theorem allWritten_begins (us : List Use) (ts : List Text) (hw : AllWritten us ts) (rest : List Text) (hr : NoValueNext rest) :
    NoValueNext (ts ++ rest) := by
  cases hw with
  | nil => exact hr
  | cons h h' =>
    rw [List.append_assoc]
    exact written_begins _ _ _ h

/-- Nothing more can be taken as a value. -/
def ClosedAfter (us : List Use) : Prop :=
  ∀ u ∈ us.getLast?, ∀ g, understand u = some g →
    (argOf (optOf g)).maxArgs = some 0 ∨ (argOf (optOf g)).maxArgs = some 1 ∧ u.values ≠ []

theorem lex_allWritten (us : List Use) (ts : List Text) (hw : AllWritten us ts) (hu : ∀ u ∈ us, ∃ g, understand u = some g)
    (rest : List Text) (hr : NoValueNext rest ∨ ClosedAfter us) :
    lexArgs cliTable none (ts ++ rest) = (us ++ (lexArgs cliTable none rest).1, (lexArgs cliTable none rest).2) := by
  induction hw with
  | nil => rfl
  | @cons u us ts ts' h h' ih =>
    obtain ⟨g, hg⟩ := hu u List.mem_cons_self
    rw [List.append_assoc, lex_written u ts _ g hg h, ih (fun u hu' => hu u (List.mem_cons_of_mem _ hu'))]
    · rfl
    · rcases hr with hr | hr
      · exact Or.inl hr
      · cases us with
        | nil => exact Or.inr (fun u hu => by cases hu)
        | cons u' us =>
          refine Or.inr (fun v hv => hr v ?_)
          rw [List.getLast?_cons_cons]
          exact hv
    · cases h' with
      | nil =>
        rcases hr with hr | hr
        · exact Or.inl hr
        · exact Or.inr (hr u rfl g hg)
      | cons h1 h2 =>
        left
        rw [List.append_assoc]
        exact written_begins _ _ _ h1

/-! ### What is read was written -/

theorem string_ofList_toList (t : Text) : (String.ofList t).toList = t := by simp

/-- Arguments that are read as uses, with an option waiting for values. -/
def ReadFrom (p : Option Pending) (us : List Use) (args : List Text) : Prop :=
  match p with
  | none => ∃ ts, AllWritten us ts ∧ (args = ts ∨ args = ts ++ ["--".toList])
  | some p => ∃ vs us' ts, us = ⟨p.name, p.values ++ vs⟩ :: us' ∧ (∀ v ∈ vs, StandsAlone v) ∧ AllWritten us' ts ∧
      (args = vs ++ ts ∨ args = vs ++ ts ++ ["--".toList])

theorem readFrom_flush (p : Option Pending) (us : List Use) (args : List Text) (h : ReadFrom none us args) :
    ReadFrom p (flush p ++ us) args := by
  cases p with
  | none => exact h
  | some p =>
    obtain ⟨ts, h1, h2⟩ := h
    refine ⟨[], us, ts, ?_, by simp, h1, ?_⟩
    · rw [List.append_nil]; rfl
    · exact h2

theorem readFrom_cons (u : Use) (us : List Use) (ts args : List Text) (hw : WrittenAs u ts) (h : ReadFrom none us args) :
    ReadFrom none (u :: us) (ts ++ args) := by
  obtain ⟨ts', h1, h2⟩ := h
  refine ⟨ts ++ ts', .cons hw h1, ?_⟩
  rcases h2 with rfl | rfl
  · exact Or.inl rfl
  · exact Or.inr (List.append_assoc _ _ _).symm

theorem readFrom_pending (n : OptName) (max : Option Nat) (us : List Use) (t : Text) (args : List Text)
    (hw : ∀ vs, (∀ v ∈ vs, StandsAlone v) → WrittenAs ⟨n, vs⟩ (t :: vs)) (h : ReadFrom (some ⟨n, max, []⟩) us args) :
    ReadFrom none us (t :: args) := by
  obtain ⟨vs, us', ts, rfl, h1, h2, h3⟩ := h
  refine ⟨(t :: vs) ++ ts, .cons (hw vs h1) h2, ?_⟩
  rcases h3 with rfl | rfl
  · exact Or.inl rfl
  · exact Or.inr rfl

theorem lex_read (args : List Text) (p : Option Pending) (us : List Use) (h : lexArgs cliTable p args = (us, false))
    (hu : ∀ u ∈ us, ∃ g, understand u = some g ∧ endsReading g = false) : ReadFrom p us args := by
  induction args generalizing p us with
  | nil =>
    cases h
    rw [← List.append_nil (flush p)]
    exact readFrom_flush p [] [] ⟨[], .nil, Or.inl rfl⟩
  | cons t ts ih =>
    have hbegin : ∀ n, (∀ vs, (∀ v ∈ vs, StandsAlone v) → WrittenAs ⟨n, vs⟩ (t :: vs)) →
        (flush p ++ (begin cliTable n).1 ++ (lexArgs cliTable (begin cliTable n).2 ts).1,
          (lexArgs cliTable (begin cliTable n).2 ts).2) = (us, false) → ReadFrom p us (t :: ts) := by
      intro n hw h
      rw [Prod.mk.injEq] at h
      obtain ⟨h1, h2⟩ := h
      rw [← h1, List.append_assoc]
      refine readFrom_flush p _ _ ?_
      have hsub : ∀ u ∈ (lexArgs cliTable (begin cliTable n).2 ts).1, ∃ g, understand u = some g ∧ endsReading g = false := by
        intro u hu'
        exact hu u (by rw [← h1]; exact List.mem_append_right _ hu')
      have hih := ih (begin cliTable n).2 _ (Prod.ext rfl h2) hsub
      unfold begin at hih ⊢
      split at hih
      · exact readFrom_cons ⟨n, []⟩ _ [t] ts (hw [] (by simp)) hih
      · split at hih
        · rename_i hb
          rw [if_pos hb]
          exact readFrom_pending _ _ _ _ _ hw hih
        · rename_i hb
          rw [if_neg hb]
          exact readFrom_cons ⟨n, []⟩ _ [t] ts (hw [] (by simp)) hih
    rw [lexArgs] at h
    split at h
    · rename_i e
      rw [Prod.mk.injEq] at h
      obtain ⟨rfl, h2⟩ := h
      cases ts with
      | nil =>
        rw [tokenOf_escape t e, ← List.append_nil (flush p)]
        exact readFrom_flush p [] _ ⟨[], .nil, Or.inr rfl⟩
      | cons t' ts => cases h2
    · rename_i n v e
      rw [Prod.mk.injEq] at h
      obtain ⟨h1, h2⟩ := h
      have ht := tokenOf_long_inv t n (some v) e
      rw [← h1]
      refine readFrom_flush p _ _ ?_
      refine readFrom_cons _ _ [t] ts ?_ (ih none _ (Prod.ext rfl h2) (fun u hu' => hu u ?_))
      · rw [ht]
        have := WrittenAs.longEquals (String.ofList n) v
        rw [string_ofList_toList n] at this
        exact this
      · rw [← h1]
        exact List.mem_append_right _ (List.mem_cons_of_mem _ hu')
    · rename_i n e
      have ht := tokenOf_long_inv t n none e
      refine hbegin (.long (String.ofList n)) (fun vs hv => ?_) h
      rw [ht, attached, List.append_nil]
      have := WrittenAs.long (String.ofList n) vs hv
      rw [string_ofList_toList n] at this
      exact this
    · rename_i cs e
      obtain ⟨ht, hne⟩ := tokenOf_short_inv t cs e
      match cs, hne with
      | [c], _ =>
        refine hbegin (.short c) (fun vs hv => ?_) h
        rw [ht]
        exact .short c vs hv
      | c :: d :: rest, _ =>
        simp only [shortCluster] at h
        cases hres : resolve cliTable (.short c) with
        | none =>
          exfalso
          rw [hres] at h
          rw [Prod.mk.injEq] at h
          obtain ⟨h1, h2⟩ := h
          obtain ⟨g, hg, -⟩ := hu ⟨.short c, []⟩ (by rw [← h1]; simp)
          have := (use_understood _ _ hg).1
          rw [hres] at this
          cases this
        | some a =>
          rw [hres] at h
          simp only at h
          by_cases hb : takesValue a = true
          · rw [if_pos hb] at h
            rw [Prod.mk.injEq] at h
            obtain ⟨h1, h2⟩ := h
            rw [← h1, List.append_assoc]
            refine readFrom_flush p _ _ ?_
            refine readFrom_cons _ _ [t] ts ?_ (ih none _ (Prod.ext rfl h2) (fun u hu' => hu u ?_))
            · rw [ht]
              by_cases hd : d = '='
              · rw [hd]
                exact .shortEquals c rest
              · have e : attachedValue (d :: rest) = d :: rest := by
                  unfold attachedValue
                  split
                  · rename_i e; cases e; exact absurd rfl hd
                  · rfl
                rw [e]
                exact .shortAttached c (d :: rest) (by simp) (by simp [hd])
            · rw [← h1]
              exact List.mem_append_right _ hu'
          · exfalso
            rw [if_neg hb] at h
            rw [Prod.mk.injEq] at h
            obtain ⟨h1, h2⟩ := h
            obtain ⟨g, hg, hend⟩ := hu ⟨.short c, []⟩ (by rw [← h1]; simp)
            have := (use_understood _ _ hg).1
            rw [hres] at this
            cases this
            rw [takesValue_eq] at hb
            rw [endsReading] at hend
            rw [hend] at hb
            exact hb rfl
    · rename_i v e
      obtain ⟨rfl, hst⟩ := (tokenOf_plain_iff t v).1 e
      cases p with
      | none => cases h
      | some p =>
        simp only at h
        rw [Prod.mk.injEq] at h
        obtain ⟨h1, h2⟩ := h
        have hsub : ∀ u ∈ (lexArgs cliTable (addValue p v).2 ts).1, ∃ g, understand u = some g ∧ endsReading g = false := by
          intro u hu'
          exact hu u (by rw [← h1]; exact List.mem_append_right _ hu')
        have hih := ih (addValue p v).2 _ (Prod.ext rfl h2) hsub
        rw [← h1]
        unfold addValue at hih ⊢
        split at hih
        · rename_i hb
          rw [if_pos hb]
          obtain ⟨vs, us', ts', h3, h4, h5, h6⟩ := hih
          refine ⟨v :: vs, us', ts', ?_, ?_, h5, ?_⟩
          · refine h3.trans ?_
            simp only [List.append_assoc, List.cons_append, List.nil_append]
          · intro w hw
            rcases List.mem_cons.1 hw with rfl | hw
            · exact hst
            · exact h4 w hw
          · rcases h6 with rfl | rfl
            · exact Or.inl rfl
            · exact Or.inr rfl
        · rename_i hb
          rw [if_neg hb]
          obtain ⟨ts', h5, h6⟩ := hih
          refine ⟨[v], _, ts', rfl, ?_, h5, ?_⟩
          · intro w hw
            rcases List.mem_singleton.1 hw with rfl
            exact hst
          · rcases h6 with rfl | rfl
            · exact Or.inl rfl
            · exact Or.inr rfl

/-! ### Errors, help and version -/

theorem understood_all (us : List Use) (gs : List Given) (h : us.mapM understand = some gs) :
    ∀ u ∈ us, ∃ g, understand u = some g ∧ g ∈ gs := by
  induction us generalizing gs with
  | nil => intro u hu; cases hu
  | cons v us ih =>
    rw [List.mapM_cons] at h
    cases hg : understand v with
    | none => rw [hg] at h; cases h
    | some g =>
      rw [hg] at h
      cases hgs : us.mapM understand with
      | none => rw [hgs] at h; cases h
      | some gs' =>
        rw [hgs] at h
        cases h
        intro u hu
        rcases List.mem_cons.1 hu with rfl | hu
        · exact ⟨g, hg, List.mem_cons_self⟩
        · obtain ⟨g', h1, h2⟩ := ih gs' hgs u hu
          exact ⟨g', h1, List.mem_cons_of_mem _ h2⟩

theorem understood_last (us : List Use) (gs : List Given) (h : us.mapM understand = some gs) (u : Use)
    (hu : u ∈ us.getLast?) (g : Given) (hg : understand u = some g) : g ∈ gs.getLast? := by
  induction us generalizing gs with
  | nil => cases hu
  | cons v us ih =>
    rw [List.mapM_cons] at h
    cases hg' : understand v with
    | none => rw [hg'] at h; cases h
    | some g' =>
      rw [hg'] at h
      cases hgs : us.mapM understand with
      | none => rw [hgs] at h; cases h
      | some gs' =>
        rw [hgs] at h
        cases h
        cases us with
        | nil =>
          cases hgs
          cases hu
          have hg : understand v = some g := hg
          rw [hg] at hg'
          cases hg'
          rfl
        | cons w us =>
          rw [List.getLast?_cons_cons] at hu
          have := ih gs' hgs hu
          cases gs' with
          | nil => cases this
          | cons g'' gs' => rw [List.getLast?_cons_cons]; exact this

theorem closed_of_last (us : List Use) (gs : List Given) (h : us.mapM understand = some gs)
    (hlast : ∀ g ∈ gs.getLast?, (∃ op v, g = .operation op v) ∨ ∃ v, g = .colour v) : ClosedAfter us := by
  intro u hu g hg
  have hv := (lookup_of_understand hg).2
  rcases hlast g (understood_last us gs h u hu g hg) with ⟨op, v, rfl⟩ | ⟨v, rfl⟩
  · refine Or.inr ⟨maxArgs_eq _, ?_⟩
    intro e
    rw [e] at hv
    cases hv
  · refine Or.inr ⟨maxArgs_eq _, ?_⟩
    intro e
    rw [e] at hv
    cases hv

theorem stray_rejected (us : List Use) (gs : List Given) (h : us.mapM understand = some gs)
    (hh : .help ∉ gs) (hv : .version ∉ gs) :
    (match resolveUses cliTable [] us with
      | .error .help => Execution.help
      | .error .version => .version
      | _ => .rejected) = .rejected := by
  rw [resolveUses_ok us gs h (fun g hg => ends_iff g (fun e => hh (e ▸ hg)) (fun e => hv (e ▸ hg)))]
  cases notRepeated [] gs <;> rfl

/-- A name that takes a value, with no value next. -/
theorem lex_name (n : OptName) (name : Text) (hw : WrittenAs ⟨n, []⟩ [name]) (o : Opt)
    (ho : optionNames.lookup n = some o) (rest : List Text) (hr : NoValueNext rest) :
    ∃ us junk, lexArgs cliTable none (name :: rest) = (⟨n, []⟩ :: us, junk) := by
  have hwr := writable_of_lookup ho
  have hres : resolve cliTable n = some (argOf o) := by rw [resolve_eq, ho]; rfl
  have key : ∃ us junk, ((begin cliTable n).1 ++ (lexArgs cliTable (begin cliTable n).2 rest).1,
      (lexArgs cliTable (begin cliTable n).2 rest).2) = (⟨n, []⟩ :: us, junk) := by
    rw [begin, hres]
    simp only
    by_cases hb : takesValue (argOf o) = true
    · rw [if_pos hb, lex_flush _ _ _ hr]
      exact ⟨_, _, rfl⟩
    · rw [if_neg hb]
      exact ⟨_, _, rfl⟩
  cases hw with
  | long n vs hv =>
    rw [lexArgs, tokenOf_long _ hwr.1 hwr.2]
    simp only [String.ofList_toList, flush, List.nil_append]
    exact key
  | short c vs hv =>
    rw [lexArgs, tokenOf_short _ _ hwr]
    simp only [shortCluster_one, flush, List.nil_append]
    exact key

/-- A name that does not exist. -/
theorem lex_unknown (u : Use) (t : Text) (hw : WrittenAs u [t]) (hwr : Writable u.name)
    (ho : optionNames.lookup u.name = none) (rest : List Text) :
    ∃ vs us junk, lexArgs cliTable none (t :: rest) = (⟨u.name, vs⟩ :: us, junk) := by
  have hres : resolve cliTable u.name = none := by rw [resolve_eq, ho]; rfl
  cases hw with
  | long n vs hv =>
    rw [lexArgs, tokenOf_long _ hwr.1 hwr.2]
    simp only [String.ofList_toList, flush, List.nil_append, begin, hres]
    exact ⟨_, _, _, rfl⟩
  | longEquals n v =>
    rw [lexArgs, tokenOf_longEquals _ _ hwr.2]
    simp only [String.ofList_toList, flush, List.nil_append]
    exact ⟨_, _, _, rfl⟩
  | short c vs hv =>
    rw [lexArgs, tokenOf_short _ _ hwr]
    simp only [shortCluster_one, flush, List.nil_append, begin, hres]
    exact ⟨_, _, _, rfl⟩
  | shortAttached c v h1 h2 =>
    rw [lexArgs, tokenOf_short _ _ hwr]
    cases v with
    | nil => exact absurd rfl h1
    | cons d v =>
      simp only [shortCluster, hres, flush, List.nil_append]
      exact ⟨_, _, _, rfl⟩
  | shortEquals c v =>
    rw [lexArgs, tokenOf_short _ _ hwr]
    simp only [shortCluster, hres, flush, List.nil_append]
    exact ⟨_, _, _, rfl⟩

/-- Reading ends at an option for help or version, also when there is an error later. -/
theorem argv_error (m : Machine) (file : FigData) (env : Dict) (profile : Option String) (isTty : Bool)
    (args : List Text) (us : List Use) (gs : List Given) (hu : us.mapM understand = some gs)
    (hh : .help ∉ gs) (hv : .version ∉ gs) (hn : NoRepeats gs) (u : Use) (post : List Use) (junk : Bool)
    (hl : lexArgs cliTable none args = (us ++ u :: post, junk)) (r : CliResult)
    (hr : ∀ seen, resolveUses cliTable seen (u :: post) = .error r) :
    executeArgv m file env profile isTty args = match r with
      | .help => .help
      | .version => .version
      | .rejected => .rejected
      | .matches _ => executeArgv m file env profile isTty args := by
  have hs : ∀ g ∈ gs, endsReading g = false := fun g hg => ends_iff g (fun e => hh (e ▸ hg)) (fun e => hv (e ▸ hg))
  rw [noRepeats_iff gs hs] at hn
  have := resolveUses_prefix us gs hu hs [] hn u post r hr
  cases r with
  | «matches» ms => rfl
  | _ =>
    rw [executeArgv, hl]
    cases junk with
    | true => simp only [this]
    | false =>
      simp only
      rw [execute, getMatches, if_neg (by simp), this]

theorem argv_rejected (m : Machine) (file : FigData) (env : Dict) (profile : Option String) (isTty : Bool)
    (args : List Text) (us : List Use) (gs : List Given) (hu : us.mapM understand = some gs)
    (hh : .help ∉ gs) (hv : .version ∉ gs) (hn : NoRepeats gs) (u : Use) (post : List Use) (junk : Bool)
    (hl : lexArgs cliTable none args = (us ++ u :: post, junk)) (hnot : understand u = none) :
    executeArgv m file env profile isTty args = .rejected := by
  refine argv_error m file env profile isTty args us gs hu hh hv hn u post junk hl .rejected (fun seen => ?_)
  rw [resolveUses]
  rcases use_not_understood u hnot with h0 | ⟨a, h0, h1⟩
  · rw [h0]
  · rw [h0]; simp only [h1]

theorem argv_ends (m : Machine) (file : FigData) (env : Dict) (profile : Option String) (isTty : Bool)
    (args : List Text) (us : List Use) (gs : List Given) (hu : us.mapM understand = some gs)
    (hh : .help ∉ gs) (hv : .version ∉ gs) (hn : NoRepeats gs) (u : Use) (post : List Use) (junk : Bool)
    (hl : lexArgs cliTable none args = (us ++ u :: post, junk)) :
    (understand u = some .help → executeArgv m file env profile isTty args = .help) ∧
    (understand u = some .version → executeArgv m file env profile isTty args = .version) := by
  refine ⟨fun h => ?_, fun h => ?_⟩
  · refine argv_error m file env profile isTty args us gs hu hh hv hn u post junk hl .help (fun seen => ?_)
    obtain ⟨h0, h1⟩ := use_understood u _ h
    rw [resolveUses, h0]
    simp only [h1, action_eq]
    rfl
  · refine argv_error m file env profile isTty args us gs hu hh hv hn u post junk hl .version (fun seen => ?_)
    obtain ⟨h0, h1⟩ := use_understood u _ h
    rw [resolveUses, h0]
    simp only [h1, action_eq]
    rfl

/-! ### Options without a value -/

theorem missing_value (a : ArgDef) (ha : a ∈ cliTable) (hc : a.hasName (.long "colour") = false) (d : String)
    (hd : a.defaultMissing = some d) (n : OptName) (hn : a.hasName n = true) :
    resolve cliTable n = some a ∧ useValues a [] = useValues a [d.toList] := by
  rw [hasName_iff] at hn
  refine ⟨(by decide +kernel : ∀ a ∈ cliTable, ∀ n ∈ a.names, resolve cliTable n = some a) a ha n hn, ?_⟩
  exact (by decide +kernel : ∀ a ∈ cliTable, a.hasName (.long "colour") = false → ∀ d ∈ a.defaultMissing,
    useValues a [] = useValues a [d.toList]) a ha hc d hd

end Pemv
