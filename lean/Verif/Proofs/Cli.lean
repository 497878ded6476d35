import Verif.Spec.Cli
import Verif.Proofs.Config

/-!
# Facts about the command line
-/

namespace Pemv

open Spec

/-! ### Names -/

/-- The identifier of an option. -/
def idOf : Opt → String
  | .operation .tvr => "tvr"
  | .operation .ccdIad => "ccd-iad"
  | .operation .ccdCvr => "ccd-cvr"
  | .operation .tsi => "tsi"
  | .operation .cvmResults => "cvm-results"
  | .operation .cvmList => "cvm-list"
  | .operation .identify => "identify"
  | .operation .autoTlv => "auto-tlv"
  | .operation .berTlv => "ber-tlv"
  | .operation .ingenicoTlv => "ingenico-tlv"
  | .operation .serviceCode => "service-code"
  | .colour => "colour"
  | .masking => "masking-character"
  | .sort => "sort-parsed-tags"
  | .noSort => "no-sort-parsed-tags"
  | .help => "help"
  | .version => "version"

/-- All options. -/
def allOpts : List Opt := [
  .help, .version, .colour, .masking, .sort, .noSort, .operation .identify, .operation .autoTlv,
  .operation .berTlv, .operation .ingenicoTlv, .operation .tvr, .operation .ccdIad, .operation .ccdCvr,
  .operation .tsi, .operation .cvmResults, .operation .cvmList, .operation .serviceCode]

theorem mem_allOpts (o : Opt) : o ∈ allOpts := by
  cases o with
  | operation op => cases op <;> decide
  | _ => decide

/-- The declaration of an option. -/
def argOf (o : Opt) : ArgDef := (cliTable.find? (fun a => a.id == idOf o)).getD ⟨"", none, [], "", [], 1, some 1, .bool, .set, [], none, [], [], []⟩

theorem cliTable_eq : cliTable = allOpts.map argOf := by decide +kernel

theorem argOf_id (o : Opt) : (argOf o).id = idOf o :=
  (by decide +kernel : ∀ o ∈ allOpts, (argOf o).id = idOf o) o (mem_allOpts o)

theorem idOf_inj {o o' : Opt} (h : idOf o = idOf o') : o = o' :=
  (by decide +kernel : ∀ o ∈ allOpts, ∀ o' ∈ allOpts, idOf o = idOf o' → o = o') o (mem_allOpts o) o' (mem_allOpts o') h

theorem find_argOf (o : Opt) : cliTable.find? (fun a => a.id == idOf o) = some (argOf o) :=
  (by decide +kernel : ∀ o ∈ allOpts, cliTable.find? (fun a => a.id == idOf o) = some (argOf o)) o (mem_allOpts o)

/-- The names an option is declared with. -/
def ArgDef.names (a : ArgDef) : List OptName :=
  a.short.toList.map .short ++ a.shortAliases.map .short ++ .long a.long :: a.aliases.map .long

theorem hasName_iff (a : ArgDef) (n : OptName) : a.hasName n = true ↔ n ∈ a.names := by
  cases n with
  | long n =>
    simp [ArgDef.hasName, ArgDef.names]
    constructor
    · rintro (h | h)
      · exact Or.inl h.symm
      · exact Or.inr h
    · rintro (h | h)
      · exact Or.inl h.symm
      · exact Or.inr h
  | short c =>
    simp [ArgDef.hasName, ArgDef.names]

theorem resolve_eq (n : OptName) : resolve cliTable n = (optionNames.lookup n).map argOf := by
  by_cases h : n ∈ optionNames.map Prod.fst
  · exact (by decide +kernel : ∀ n ∈ optionNames.map Prod.fst, resolve cliTable n = (optionNames.lookup n).map argOf) n h
  · have h1 : optionNames.lookup n = none := by
      rw [List.lookup_eq_none_iff]
      intro p hp
      simp only [bne_iff_ne, ne_eq]
      intro e
      exact h (e ▸ List.mem_map_of_mem hp)
    rw [h1, Option.map_none, resolve, List.find?_eq_none]
    intro a ha hn
    rw [hasName_iff] at hn
    exact h ((by decide +kernel : ∀ a ∈ cliTable, ∀ n ∈ a.names, n ∈ optionNames.map Prod.fst) a ha n hn)

/-! ### Values -/

/-- The option of something given. -/
def optOf : Given → Opt
  | .operation op _ => .operation op
  | .colour _ => .colour
  | .masking _ => .masking
  | .sort _ => .sort
  | .noSort _ => .noSort
  | .help => .help
  | .version => .version

/-- Its values. -/
def valuesOf : Given → List ArgVal
  | .operation _ v => [.string v]
  | .colour v => [.string v]
  | .masking cs => cs.map .char
  | .sort b => [.bool b]
  | .noSort b => [.bool b]
  | .help => []
  | .version => []

theorem optOf_understand (o : Opt) (vs : List Text) (g : Given) (h : understandOpt o vs = some g) : optOf g = o := by
  unfold understandOpt at h
  split at h
  · split at h
    · cases h
    · cases h; rfl
  · split at h
    · cases h; rfl
    · cases h
  all_goals first
    | (cases h; rfl)
    | (rw [Option.map_eq_some_iff] at h; obtain ⟨x, -, rfl⟩ := h; rfl)
    | cases h

theorem mapM_char (vs : List Text) :
    vs.mapM ValueParser.char.parse = (singleChars vs).map (fun cs => cs.map ArgVal.char) := by
  induction vs with
  | nil => rfl
  | cons v vs ih =>
    rw [List.mapM_cons, ih]
    match v with
    | [] => rfl
    | [c] =>
      rw [singleChars]
      cases singleChars vs <;> rfl
    | _ :: _ :: _ => rfl

theorem parse_bool (v : Text) : ValueParser.bool.parse v = (truthValue v).map ArgVal.bool := by
  rw [ValueParser.parse, truthValue]
  split
  · rfl
  · split <;> rfl

theorem parse_colour (v : Text) : (ValueParser.oneOf ["auto", "always", "ansi", "never"]).parse v =
    if v ∈ colourNames.map (fun p => p.1.toList) then some (.string v) else none := by
  rw [ValueParser.parse]
  have : (["auto", "always", "ansi", "never"].any (fun n => decide (n.toList = v)) = true) ↔
      v ∈ colourNames.map (fun p => p.1.toList) := by
    simp only [colourNames, List.any_cons, List.any_nil, Bool.or_eq_true, decide_eq_true_eq, List.map_cons,
      List.map_nil, List.mem_cons, List.not_mem_nil, or_false, Bool.false_eq_true, @eq_comm Text v]
  simp only [this]

theorem useValues_eq (o : Opt) (vs : List Text) :
    useValues (argOf o) vs = (understandOpt o vs).map valuesOf := by
  have hop : ∀ op, (argOf (.operation op)).minArgs = 1 ∧ (argOf (.operation op)).maxArgs = some 1 ∧
      (argOf (.operation op)).parser = .nonEmptyString := by
    intro op; cases op <;> decide +kernel
  cases o with
  | operation op =>
    obtain ⟨h1, h2, h3⟩ := hop op
    rw [useValues, h1, h2, h3]
    match vs with
    | [] => rfl
    | [v] =>
      simp only [List.length_singleton, Option.any_some]
      rw [if_neg (by simp), if_neg (by simp)]
      cases v <;> rfl
    | _ :: _ :: _ =>
      rw [if_pos (by simp)]; rfl
  | colour =>
    have h : (argOf .colour).minArgs = 1 ∧ (argOf .colour).maxArgs = some 1 ∧
      (argOf .colour).parser = .oneOf ["auto", "always", "ansi", "never"] := by decide +kernel
    rw [useValues, h.1, h.2.1, h.2.2]
    match vs with
    | [] => rfl
    | [v] =>
      rw [if_neg (by simp), if_neg (by simp), List.mapM_cons, parse_colour, understandOpt]
      split <;> rfl
    | _ :: _ :: _ =>
      rw [if_pos (by simp)]; rfl
  | masking =>
    have h : (argOf .masking).minArgs = 1 ∧ (argOf .masking).maxArgs = none ∧
      (argOf .masking).parser = .char := by decide +kernel
    rw [useValues, h.1, h.2.1, h.2.2]
    match vs with
    | [] => rfl
    | v :: vs =>
      rw [if_neg (by simp), if_neg (by simp), mapM_char, understandOpt, Option.map_map]
      rfl
  | sort =>
    have h : (argOf .sort).minArgs = 0 ∧ (argOf .sort).maxArgs = some 1 ∧
      (argOf .sort).parser = .bool ∧ (argOf .sort).defaultMissing = some "true" := by decide +kernel
    rw [useValues, h.1, h.2.1, h.2.2.1, h.2.2.2]
    match vs with
    | [] => decide +kernel
    | [v] =>
      rw [if_neg (by simp), if_neg (by simp), List.mapM_cons, parse_bool, understandOpt]
      cases truthValue v <;> rfl
    | _ :: _ :: _ =>
      rw [if_pos (by simp)]; rfl
  | noSort =>
    have h : (argOf .noSort).minArgs = 0 ∧ (argOf .noSort).maxArgs = some 1 ∧
      (argOf .noSort).parser = .bool ∧ (argOf .noSort).defaultMissing = some "true" := by decide +kernel
    rw [useValues, h.1, h.2.1, h.2.2.1, h.2.2.2]
    match vs with
    | [] => decide +kernel
    | [v] =>
      rw [if_neg (by simp), if_neg (by simp), List.mapM_cons, parse_bool, understandOpt]
      cases truthValue v <;> rfl
    | _ :: _ :: _ =>
      rw [if_pos (by simp)]; rfl
  | help =>
    have h : (argOf .help).minArgs = 0 ∧ (argOf .help).maxArgs = some 0 ∧
      (argOf .help).defaultMissing = none := by decide +kernel
    rw [useValues, h.1, h.2.1, h.2.2]
    match vs with
    | [] => rfl
    | _ :: _ =>
      rw [if_pos (by simp)]; rfl
  | version =>
    have h : (argOf .version).minArgs = 0 ∧ (argOf .version).maxArgs = some 0 ∧
      (argOf .version).defaultMissing = none := by decide +kernel
    rw [useValues, h.1, h.2.1, h.2.2]
    match vs with
    | [] => rfl
    | _ :: _ =>
      rw [if_pos (by simp)]; rfl

/-- What `clap` records for something given. -/
def entry (g : Given) : ArgDef × List ArgVal := (argOf (optOf g), valuesOf g)

theorem use_understood (u : Use) (g : Given) (h : understand u = some g) :
    resolve cliTable u.name = some (argOf (optOf g)) ∧ useValues (argOf (optOf g)) u.values = some (valuesOf g) := by
  rw [understand, Option.bind_eq_some_iff] at h
  obtain ⟨o, ho, hg⟩ := h
  have := optOf_understand o _ g hg
  subst this
  rw [resolve_eq, ho, useValues_eq, hg]
  exact ⟨rfl, rfl⟩

theorem use_not_understood (u : Use) (h : understand u = none) :
    resolve cliTable u.name = none ∨
    ∃ a, resolve cliTable u.name = some a ∧ useValues a u.values = none := by
  rw [understand] at h
  rw [resolve_eq]
  cases ho : optionNames.lookup u.name with
  | none => exact Or.inl rfl
  | some o =>
    rw [ho, Option.bind_some] at h
    exact Or.inr ⟨_, rfl, by rw [useValues_eq, h]; rfl⟩

/-! ### Reading from left to right -/

/-- May be given only once. -/
def onlyOnce (g : Given) : Bool := !(optOf g == .masking)

/-- Ends the reading. -/
def endsReading (g : Given) : Bool := optOf g == .help || optOf g == .version

theorem action_eq (o : Opt) : (argOf o).action =
    (match o with | .help => .help | .version => .version | .masking => .append | _ => .set) := by
  cases o with
  | operation op => cases op <;> decide +kernel
  | _ => decide +kernel

/-- No option repeated that may be given only once. -/
def notRepeated (seen : List String) : List Given → Bool
  | [] => true
  | g :: gs => (!onlyOnce g || !seen.contains (idOf (optOf g))) && notRepeated (idOf (optOf g) :: seen) gs

theorem resolveUses_ok (uses : List Use) (gs : List Given) (h : uses.mapM understand = some gs)
    (hs : ∀ g ∈ gs, endsReading g = false) (seen : List String) :
    resolveUses cliTable seen uses =
      if notRepeated seen gs then .ok (gs.map entry) else .error .rejected := by
  induction uses generalizing gs seen with
  | nil =>
    rw [List.mapM_nil] at h
    cases h
    rfl
  | cons u us ih =>
    rw [List.mapM_cons] at h
    cases hg : understand u with
    | none => rw [hg] at h; cases h
    | some g =>
      rw [hg] at h
      cases hgs : us.mapM understand with
      | none => rw [hgs] at h; cases h
      | some gs' =>
        rw [hgs] at h
        cases h
        obtain ⟨h1, h2⟩ := use_understood u g hg
        have hs' : ∀ g ∈ gs', endsReading g = false := fun g' hg' => hs g' (List.mem_cons_of_mem _ hg')
        have ih' := ih gs' hgs hs' (idOf (optOf g) :: seen)
        have hend := hs g List.mem_cons_self
        rw [resolveUses, h1]
        simp only [h2, action_eq, argOf_id, ih', notRepeated]
        have key : ∀ (b : Bool), (Except.map ((argOf (optOf g), valuesOf g) :: ·)
            (if b then .ok (gs'.map entry) else .error CliResult.rejected) :
              Except CliResult (List (ArgDef × List ArgVal))) =
            if b then .ok ((g :: gs').map entry) else .error .rejected := by
          intro b; cases b <;> rfl
        rcases Bool.eq_false_or_eq_true (seen.contains (idOf (optOf g))) with hc | hc
        · simp only [hc]
          cases g with
          | masking cs => exact key _
          | help => cases hend
          | version => cases hend
          | _ => rfl
        · simp only [hc]
          cases g with
          | help => cases hend
          | version => cases hend
          | _ => exact key _

/-- Reading ends at a use that is not understood. -/
theorem resolveUses_prefix (pre : List Use) (gs : List Given) (h : pre.mapM understand = some gs)
    (hs : ∀ g ∈ gs, endsReading g = false) (seen : List String) (hn : notRepeated seen gs = true)
    (u : Use) (post : List Use) (r : CliResult)
    (hu : ∀ seen, resolveUses cliTable seen (u :: post) = .error r) :
    resolveUses cliTable seen (pre ++ u :: post) = .error r := by
  induction pre generalizing gs seen with
  | nil => exact hu seen
  | cons v vs ih =>
    rw [List.mapM_cons] at h
    cases hg : understand v with
    | none => rw [hg] at h; cases h
    | some g =>
      rw [hg] at h
      cases hgs : vs.mapM understand with
      | none => rw [hgs] at h; cases h
      | some gs' =>
        rw [hgs] at h
        cases h
        obtain ⟨h1, h2⟩ := use_understood v g hg
        rw [notRepeated, Bool.and_eq_true] at hn
        have ih' := ih gs' hgs (fun g' hg' => hs g' (List.mem_cons_of_mem _ hg')) (idOf (optOf g) :: seen) hn.2
        have hend := hs g List.mem_cons_self
        rw [List.cons_append, resolveUses, h1]
        simp only [h2, action_eq, argOf_id, ih']
        have hn1 := hn.1
        rcases Bool.eq_false_or_eq_true (seen.contains (idOf (optOf g))) with hc | hc
        · simp only [hc] at hn1 ⊢
          cases g with
          | masking cs => rfl
          | help => cases hend
          | version => cases hend
          | _ => cases hn1
        · simp only [hc]
          cases g with
          | help => cases hend
          | version => cases hend
          | _ => rfl

/-! ### Combinations -/

theorem length_filterMap_le_one {α β : Type} (f : α → Option β) (l : List α) :
    (l.filterMap f).length ≤ 1 ↔ l.Pairwise (fun a b => f a = none ∨ f b = none) := by
  induction l with
  | nil => simp
  | cons a l ih =>
    rw [List.pairwise_cons, ← ih]
    cases ha : f a with
    | none => simp [ha]
    | some b =>
      rw [List.filterMap_cons_some ha, List.length_cons]
      constructor
      · intro h
        have : l.filterMap f = [] := List.length_eq_zero_iff.1 (by omega)
        rw [List.filterMap_eq_nil_iff] at this
        exact ⟨fun x hx => Or.inr (this x hx), by omega⟩
      · rintro ⟨h, -⟩
        have : l.filterMap f = [] := List.filterMap_eq_nil_iff.2 (fun x hx => (h x hx).resolve_left (by simp))
        rw [this]; simp

theorem pairwise_iff_all {α : Type} (R : α → α → Prop) (hs : ∀ a b, R a b → R b a) (hr : ∀ a, R a a) (l : List α) :
    l.Pairwise R ↔ ∀ a ∈ l, ∀ b ∈ l, R a b := by
  induction l with
  | nil => simp
  | cons x l ih =>
    rw [List.pairwise_cons, ih]
    constructor
    · rintro ⟨h1, h2⟩ a ha b hb
      rw [List.mem_cons] at ha hb
      rcases ha with rfl | ha
      · rcases hb with rfl | hb
        · exact hr _
        · exact h1 b hb
      · rcases hb with rfl | hb
        · exact hs _ _ (h1 a ha)
        · exact h2 a ha b hb
    · intro h
      exact ⟨fun a ha => h x List.mem_cons_self a (List.mem_cons_of_mem _ ha),
        fun a ha b hb => h a (List.mem_cons_of_mem _ ha) b (List.mem_cons_of_mem _ hb)⟩

theorem notRepeated_iff (seen : List String) (gs : List Given) : notRepeated seen gs = true ↔
    (∀ g ∈ gs, onlyOnce g = true → idOf (optOf g) ∉ seen) ∧
    gs.Pairwise (fun g g' => onlyOnce g' = true → optOf g ≠ optOf g') := by
  induction gs generalizing seen with
  | nil => simp [notRepeated]
  | cons g gs ih =>
    rw [notRepeated, Bool.and_eq_true, ih, List.pairwise_cons]
    simp only [Bool.or_eq_true, Bool.not_eq_true', List.contains_eq_mem, decide_eq_false_iff_not, List.mem_cons,
      forall_eq_or_imp, not_or]
    constructor
    · rintro ⟨h1, h2, h3⟩
      refine ⟨⟨fun ho => h1.resolve_left (by rw [ho]; simp), fun g' hg' ho => (h2 g' hg' ho).2⟩,
        fun g' hg' ho e => (h2 g' hg' ho).1 (by rw [e]), h3⟩
    · rintro ⟨⟨h1, h2⟩, h3, h4⟩
      refine ⟨?_, fun g' hg' ho => ⟨fun e => h3 g' hg' ho (idOf_inj e).symm, h2 g' hg' ho⟩, h4⟩
      cases ho : onlyOnce g with
      | false => exact Or.inl rfl
      | true => exact Or.inr (h1 ho)

theorem noRepeats_iff (gs : List Given) (hs : ∀ g ∈ gs, endsReading g = false) :
    NoRepeats gs ↔ notRepeated [] gs = true := by
  rw [notRepeated_iff]
  simp only [List.not_mem_nil, not_false_eq_true, implies_true, true_and]
  have hop : ((operationsOf gs).map Prod.fst).Nodup ↔ gs.Pairwise (fun g g' => ∀ op v op' v', g = .operation op v →
      g' = .operation op' v' → op ≠ op') := by
    rw [List.Nodup, List.pairwise_map, operationsOf, List.pairwise_filterMap]
    have key : ∀ g g' : Given, (∀ b, g.operation? = some b →
        ∀ b', g'.operation? = some b' → b.1 ≠ b'.1) ↔
        (∀ op v op' v', g = .operation op v → g' = .operation op' v' → op ≠ op') := by
      intro g g'
      constructor
      · rintro h op v op' v' rfl rfl
        exact h _ rfl _ rfl
      · intro h b hb b' hb'
        cases g <;> try cases hb
        cases g' <;> try cases hb'
        exact h _ _ _ _ rfl rfl
    exact ⟨fun h => h.imp (fun h => (key _ _).1 h), fun h => h.imp (fun h => (key _ _).2 h)⟩
  have hall : gs.Pairwise (fun g g' => onlyOnce g' = true → optOf g ≠ optOf g') ↔
      ((operationsOf gs).map Prod.fst).Nodup ∧ (coloursOf gs).length ≤ 1 ∧ (sortsOf gs).length ≤ 1 ∧
        (noSortsOf gs).length ≤ 1 := by
    rw [hop, coloursOf, sortsOf, noSortsOf, length_filterMap_le_one, length_filterMap_le_one, length_filterMap_le_one,
      ← List.pairwise_and_iff, ← List.pairwise_and_iff, ← List.pairwise_and_iff]
    have : ∀ g ∈ gs, ∀ g' ∈ gs, (onlyOnce g' = true → optOf g ≠ optOf g') ↔
        ((∀ op v op' v', g = .operation op v → g' = .operation op' v' → op ≠ op') ∧
        (g.colour? = none ∨
          g'.colour? = none) ∧
        (g.sort? = none ∨
          g'.sort? = none) ∧
        (g.noSort? = none ∨
          g'.noSort? = none)) := by
      intro g hg g' hg'
      have e := hs g hg
      have e' := hs g' hg'
      cases g <;> cases g' <;>
        simp [onlyOnce, optOf, endsReading, Given.colour?, Given.sort?, Given.noSort?] at e e' ⊢
      constructor
      · rintro h op v op' v' rfl rfl rfl rfl
        exact h
      · intro h
        exact h _ _ _ _ rfl rfl rfl rfl
    exact ⟨fun h => h.imp_of_mem (fun ha hb => (this _ ha _ hb).1), fun h => h.imp_of_mem (fun ha hb => (this _ ha _ hb).2)⟩
  rw [hall]
  exact ⟨fun h => ⟨h.operation, h.colour, h.sort, h.noSort⟩, fun h => ⟨h.1, h.2.1, h.2.2.1, h.2.2.2⟩⟩

/-- Options that exclude each other. -/
def excluding : Opt → Opt → Bool
  | .operation op, .operation op' => op != op'
  | .sort, .noSort => true
  | .noSort, .sort => true
  | _, _ => false

theorem conflicting_eq (o o' : Opt) : conflicting (argOf o) (argOf o') = excluding o o' :=
  (by decide +kernel : ∀ o ∈ allOpts, ∀ o' ∈ allOpts, conflicting (argOf o) (argOf o') = excluding o o')
    o (mem_allOpts o) o' (mem_allOpts o')

/-- Options that only make sense with a block. -/
def needsBlock : Opt → Bool
  | .masking => true
  | .sort => true
  | .noSort => true
  | _ => false

theorem requires_eq (o : Opt) : (argOf o).requires = if needsBlock o then ["tlv-parsers"] else [] :=
  (by decide +kernel : ∀ o ∈ allOpts, (argOf o).requires = if needsBlock o then ["tlv-parsers"] else [])
    o (mem_allOpts o)

/-- Reads a block. -/
def readsBlock : Opt → Bool
  | .operation op => tlvOperations.contains op
  | _ => false

theorem reads_eq (o : Opt) :
    ((argOf o).id == "tlv-parsers" || (argOf o).groups.contains "tlv-parsers") = readsBlock o :=
  (by decide +kernel : ∀ o ∈ allOpts,
    ((argOf o).id == "tlv-parsers" || (argOf o).groups.contains "tlv-parsers") = readsBlock o) o (mem_allOpts o)

theorem satisfied_iff (gs : List Given) : satisfied (gs.map entry) "tlv-parsers" = true ↔
    ∃ p ∈ operationsOf gs, p.1 ∈ tlvOperations := by
  rw [satisfied, List.any_map, List.any_eq_true]
  constructor
  · rintro ⟨g, hg, h⟩
    have h' : readsBlock (optOf g) = true := (reads_eq (optOf g)).symm.trans h
    cases g with
    | operation op v =>
      refine ⟨(op, v), ?_, by simpa [readsBlock, optOf] using h'⟩
      exact List.mem_filterMap.2 ⟨_, hg, rfl⟩
    | _ => cases h'
  · rintro ⟨⟨op, v⟩, hp, ht⟩
    obtain ⟨g, hg, h⟩ := List.mem_filterMap.1 hp
    refine ⟨g, hg, (reads_eq (optOf g)).trans ?_⟩
    cases g with
    | operation op' v' => cases h; simpa [readsBlock, optOf] using ht
    | _ => cases h

theorem combinationAllowed_iff (gs : List Given) : combinationAllowed (gs.map entry) = true ↔
    gs.Pairwise (fun g g' => excluding (optOf g) (optOf g') = false) ∧
    ((∃ g ∈ gs, needsBlock (optOf g) = true) → ∃ p ∈ operationsOf gs, p.1 ∈ tlvOperations) := by
  rw [pairwise_iff_all]
  · rw [combinationAllowed, List.all_eq_true]
    simp only [Bool.and_eq_true, List.all_eq_true, List.forall_mem_map, Bool.not_eq_true']
    constructor
    · intro h
      refine ⟨fun a ha b hb => ?_, ?_⟩
      · rw [← conflicting_eq]; exact (h a ha).1 b hb
      · rintro ⟨g, hg, hn⟩
        rw [← satisfied_iff]
        refine (h g hg).2 _ ?_
        show "tlv-parsers" ∈ (argOf (optOf g)).requires
        rw [requires_eq, hn]; simp
    · rintro ⟨h1, h2⟩ a ha
      refine ⟨fun b hb => ?_, fun r hr => ?_⟩
      · show conflicting (argOf (optOf a)) (argOf (optOf b)) = false
        rw [conflicting_eq]; exact h1 a ha b hb
      · replace hr : r ∈ (argOf (optOf a)).requires := hr
        rw [requires_eq] at hr
        split at hr
        · rename_i hn
          simp only [List.mem_cons, List.not_mem_nil, or_false] at hr
          subst hr
          exact (satisfied_iff gs).2 (h2 ⟨a, ha, hn⟩)
        · cases hr
  · intro a b h
    have : ∀ o ∈ allOpts, ∀ o' ∈ allOpts, excluding o o' = excluding o' o := by decide +kernel
    rw [this _ (mem_allOpts _) _ (mem_allOpts _)]; exact h
  · intro a
    have : ∀ o ∈ allOpts, excluding o o = false := by decide +kernel
    exact this _ (mem_allOpts _)

/-- Both kinds of words about sorting. -/
def sortingOf : Given → Option Bool
  | .sort b => some b
  | .noSort b => some (!b)
  | _ => none

theorem sorting_length (gs : List Given) :
    (sortsOf gs).length + (noSortsOf gs).length = (gs.filterMap sortingOf).length := by
  induction gs with
  | nil => rfl
  | cons g gs ih =>
    simp only [sortsOf, noSortsOf] at ih ⊢
    cases g <;> simp only [List.filterMap_cons, sortingOf, Given.sort?, Given.noSort?, List.length_cons] <;> omega

theorem consistent_iff (gs : List Given) (hs : ∀ g ∈ gs, endsReading g = false) :
    Consistent gs ↔ notRepeated [] gs = true ∧ combinationAllowed (gs.map entry) = true := by
  have hblock : (masksOf gs ≠ [] ∨ sortsOf gs ≠ [] ∨ noSortsOf gs ≠ []) ↔ ∃ g ∈ gs, needsBlock (optOf g) = true := by
    rw [masksOf, sortsOf, noSortsOf]
    simp only [ne_eq, List.filterMap_eq_nil_iff]
    constructor
    · rintro (h | h | h) <;> (simp only [Classical.not_forall] at h; obtain ⟨g, hg, h⟩ := h; refine ⟨g, hg, ?_⟩) <;>
        (cases g <;> first | rfl | exact absurd rfl h)
    · rintro ⟨g, hg, hn⟩
      cases g with
      | masking cs => exact Or.inl (fun h => by cases h _ hg)
      | sort b => exact Or.inr (Or.inl (fun h => by cases h _ hg))
      | noSort b => exact Or.inr (Or.inr (fun h => by cases h _ hg))
      | _ => cases hn
  have hpair : notRepeated [] gs = true ∧ gs.Pairwise (fun g g' => excluding (optOf g) (optOf g') = false) ↔
      (operationsOf gs).length ≤ 1 ∧ (coloursOf gs).length ≤ 1 ∧ (sortsOf gs).length + (noSortsOf gs).length ≤ 1 := by
    rw [sorting_length, operationsOf, coloursOf, length_filterMap_le_one, length_filterMap_le_one,
      length_filterMap_le_one, notRepeated_iff]
    simp only [List.not_mem_nil, not_false_eq_true, implies_true, true_and]
    rw [← List.pairwise_and_iff, ← List.pairwise_and_iff, ← List.pairwise_and_iff]
    have : ∀ g ∈ gs, ∀ g' ∈ gs, ((onlyOnce g' = true → optOf g ≠ optOf g') ∧ excluding (optOf g) (optOf g') = false) ↔
        ((g.operation? = none ∨
          g'.operation? = none) ∧
        (g.colour? = none ∨
          g'.colour? = none) ∧
        (sortingOf g = none ∨ sortingOf g' = none)) := by
      intro g hg g' hg'
      have e := hs g hg
      have e' := hs g' hg'
      cases g <;> cases g' <;> 
        simp [onlyOnce, optOf, excluding, sortingOf, endsReading, Given.operation?, Given.colour?] at e e' ⊢
    exact ⟨fun h => h.imp_of_mem (fun ha hb => (this _ ha _ hb).1), fun h => h.imp_of_mem (fun ha hb => (this _ ha _ hb).2)⟩
  rw [combinationAllowed_iff]
  constructor
  · intro h
    obtain ⟨h1, h2⟩ := hpair.2 ⟨h.operation, h.colour, h.sorting⟩
    exact ⟨h1, h2, fun hb => h.block (hblock.2 hb)⟩
  · rintro ⟨h1, h2, h3⟩
    obtain ⟨a, b, c⟩ := hpair.1 ⟨h1, h2⟩
    exact ⟨a, b, c, fun hb => h3 (hblock.1 hb)⟩

/-! ### Matches -/

/-- Values used for an option that is not given. -/
def defaultsOf : Opt → Option (List ArgVal)
  | .colour => some [.string "auto".toList]
  | .masking => some [.char '*']
  | .sort => some [.bool true]
  | .noSort => some [.bool false]
  | _ => none

theorem default_eq (o : Opt) :
    defaultMatched (argOf o) = ((defaultsOf o).map (fun vs => (⟨idOf o, vs, true⟩ : Matched))).toList :=
  (by decide +kernel : ∀ o ∈ allOpts,
    defaultMatched (argOf o) = ((defaultsOf o).map (fun vs => (⟨idOf o, vs, true⟩ : Matched))).toList) o (mem_allOpts o)

/-- The values given for an option, in order. -/
def given? (gs : List Given) (o : Opt) : Option (List ArgVal) :=
  if gs.any (fun g => optOf g == o) then some ((gs.filter (fun g => optOf g == o)).flatMap valuesOf) else none

/-- The match of an option. -/
def matched? (gs : List Given) (o : Opt) : Option Matched :=
  match given? gs o with
  | some vs => some ⟨idOf o, vs, false⟩
  | none => (defaultsOf o).map (fun vs => ⟨idOf o, vs, true⟩)

theorem entry_id (g : Given) (o : Opt) : ((entry g).1.id == (argOf o).id) = (optOf g == o) := by
  rw [argOf_id]
  show ((argOf (optOf g)).id == idOf o) = _
  rw [argOf_id, Bool.eq_iff_iff, beq_iff_eq, beq_iff_eq]
  exact ⟨idOf_inj, fun h => by rw [h]⟩

theorem matchedOf_eq (gs : List Given) (o : Opt) : matchedOf (gs.map entry) (argOf o) = (matched? gs o).toList := by
  rw [matchedOf, default_eq, given, List.any_map, List.filter_map, List.flatMap_map, matched?, given?]
  have e : ((fun u : ArgDef × List ArgVal => u.1.id == (argOf o).id) ∘ entry) = fun g => optOf g == o := by
    funext g; exact entry_id g o
  rw [e, argOf_id]
  split
  · rfl
  · rfl

theorem matched_id (gs : List Given) (o : Opt) (m : Matched) (h : matched? gs o = some m) : m.id = idOf o := by
  rw [matched?] at h
  split at h
  · cases h; rfl
  · rw [Option.map_eq_some_iff] at h
    obtain ⟨vs, -, rfl⟩ := h
    rfl

theorem findSome_single {α β : Type} [DecidableEq α] (l : List α) (x : α) (y : Option β) (h : x ∈ l) :
    l.findSome? (fun a => if a = x then y else none) = y := by
  induction l with
  | nil => cases h
  | cons a l ih =>
    rw [List.findSome?_cons]
    by_cases ha : a = x
    · rw [if_pos ha]
      cases y with
      | some v => rfl
      | none =>
        rw [List.findSome?_eq_none_iff]
        intro b _
        split <;> rfl
    · rw [if_neg ha]
      exact ih ((List.mem_cons.1 h).resolve_left (fun e => ha e.symm))

theorem find_matched (gs : List Given) (o : Opt) :
    (cliTable.flatMap (matchedOf (gs.map entry))).find? (fun m => m.id == idOf o) = matched? gs o := by
  rw [List.find?_flatMap, cliTable_eq, List.findSome?_map]
  have : ((fun x => (matchedOf (gs.map entry) x).find? (fun m => m.id == idOf o)) ∘ argOf) =
      fun o' => if o' = o then matched? gs o else none := by
    funext o'
    show (matchedOf (gs.map entry) (argOf o')).find? _ = _
    rw [matchedOf_eq]
    cases hm : matched? gs o' with
    | none =>
      split
      · rename_i h; rw [← h, hm]; rfl
      · rfl
    | some m =>
      have hid := matched_id gs o' m hm
      rw [Option.toList, List.find?_cons, hid]
      by_cases h : o' = o
      · subst h
        rw [if_pos (by rfl), hm]
        simp
      · rw [if_neg h]
        have : (idOf o' == idOf o) = false := by
          rw [beq_eq_false_iff_ne]; exact fun e => h (idOf_inj e)
        rw [this]
        rfl
  rw [this, findSome_single _ _ _ (mem_allOpts o)]

/-- The matches of a command line. -/
abbrev matchesOf (gs : List Given) : Matches := cliTable.flatMap (matchedOf (gs.map entry))

theorem getMany_eq (gs : List Given) (o : Opt) (ty : ArgTy) (h : (argOf o).parser.type = ty) :
    getMany cliTable (matchesOf gs) ty (idOf o) = .ok ((matched? gs o).map Matched.values) := by
  rw [getMany, find_argOf]
  simp only [h, if_true]
  rw [find_matched]

theorem isDefaultSource_eq (gs : List Given) (o : Opt) (m : Matched) (h : matched? gs o = some m) :
    isDefaultSource (matchesOf gs) (idOf o) = .ok m.isDefault := by
  rw [isDefaultSource, find_matched, h]

theorem given_cons (g : Given) (gs : List Given) (o : Opt) : given? (g :: gs) o =
    if optOf g = o then some (valuesOf g ++ ((given? gs o).getD [])) else given? gs o := by
  rw [given?, given?, List.any_cons]
  by_cases h : optOf g = o
  · rw [if_pos h, List.filter_cons_of_pos (by simpa using h), List.flatMap_cons]
    have e : (optOf g == o) = true := by simpa using h
    rw [e, Bool.true_or, if_pos (by rfl)]
    cases ha : gs.any (fun g => optOf g == o) with
    | true => rfl
    | false =>
      have : gs.filter (fun g => optOf g == o) = [] := by
        rw [List.filter_eq_nil_iff]
        intro x hx hx'
        rw [List.any_eq_false] at ha
        exact ha x hx hx'
      rw [this]; rfl
  · have e : (optOf g == o) = false := by simpa using h
    rw [if_neg h, List.filter_cons_of_neg (by simpa using h), e, Bool.false_or]

/-- The first text among values. -/
def firstString : List ArgVal → Option Text
  | .string s :: _ => some s
  | _ => none

/-- The first truth value among values. -/
def firstBool : List ArgVal → Option Bool
  | .bool b :: _ => some b
  | _ => none

/-- The characters among values. -/
def charsAmong (vs : List ArgVal) : List Char := vs.filterMap (fun v => match v with | .char c => some c | _ => none)

theorem given_operation (gs : List Given) (op : Operation) :
    (given? gs (.operation op)).bind firstString = (operationsOf gs).lookup op := by
  induction gs with
  | nil => rfl
  | cons g gs ih =>
    rw [given_cons]
    cases g with
    | operation op' v =>
      show _ = List.lookup op ((op', v) :: operationsOf gs)
      rw [List.lookup_cons]
      by_cases h : op' = op
      · subst h
        rw [if_pos (by rfl)]
        simp [valuesOf, firstString]
      · rw [if_neg (by simpa [optOf] using h), ih]
        have : (op == op') = false := by rw [beq_eq_false_iff_ne]; exact fun e => h e.symm
        rw [this]
    | _ =>
      rw [if_neg (by simp [optOf]), ih]
      rfl

theorem given_colour (gs : List Given) : (given? gs .colour).bind firstString = (coloursOf gs).head? := by
  induction gs with
  | nil => rfl
  | cons g gs ih =>
    rw [given_cons]
    cases g with
    | colour v => rw [if_pos (by rfl)]; rfl
    | _ =>
      rw [if_neg (by simp [optOf]), ih]
      rfl

theorem given_sort (gs : List Given) : (given? gs .sort).bind firstBool = (sortsOf gs).head? := by
  induction gs with
  | nil => rfl
  | cons g gs ih =>
    rw [given_cons]
    cases g with
    | sort b => rw [if_pos (by rfl)]; rfl
    | _ =>
      rw [if_neg (by simp [optOf]), ih]
      rfl

theorem given_noSort (gs : List Given) : (given? gs .noSort).bind firstBool = (noSortsOf gs).head? := by
  induction gs with
  | nil => rfl
  | cons g gs ih =>
    rw [given_cons]
    cases g with
    | noSort b => rw [if_pos (by rfl)]; rfl
    | _ =>
      rw [if_neg (by simp [optOf]), ih]
      rfl

theorem charsAmong_chars (cs : List Char) (l : List ArgVal) :
    charsAmong (cs.map ArgVal.char ++ l) = cs ++ charsAmong l := by
  induction cs with
  | nil => rfl
  | cons c cs ih => rw [List.map_cons, List.cons_append, List.cons_append, ← ih]; rfl

theorem given_masking (gs : List Given) : (given? gs .masking).map charsAmong =
    if masksOf gs = [] then none else some (masksOf gs).flatten := by
  have key : ∀ gs, charsAmong ((given? gs .masking).getD []) = (masksOf gs).flatten ∧
      ((given? gs .masking).isSome = true ↔ masksOf gs ≠ []) := by
    intro gs
    induction gs with
    | nil => exact ⟨rfl, by simp [given?, masksOf]⟩
    | cons g gs ih =>
      rw [given_cons]
      cases g with
      | masking cs =>
        rw [if_pos (by rfl)]
        refine ⟨?_, by simp [masksOf, Given.masking?]⟩
        show charsAmong (cs.map .char ++ _) = cs ++ (masksOf gs).flatten
        rw [charsAmong_chars, ih.1]
      | _ =>
        rw [if_neg (by simp [optOf])]
        exact ih
  obtain ⟨h1, h2⟩ := key gs
  cases h : given? gs .masking with
  | none =>
    rw [h] at h2
    have : masksOf gs = [] := Classical.byContradiction (fun e => by cases h2.2 e)
    rw [if_pos this]; rfl
  | some vs =>
    rw [h] at h1 h2
    rw [if_neg (h2.1 rfl), ← h1]
    rfl

theorem getString_op (gs : List Given) (op : Operation) :
    getString cliTable (matchesOf gs) (idOf (.operation op)) = .ok ((operationsOf gs).lookup op) := by
  have ht : (argOf (.operation op)).parser.type = .string := by cases op <;> decide +kernel
  rw [getString, getMany_eq gs _ _ ht, ← given_operation, matched?]
  cases given? gs (.operation op) with
  | none => rfl
  | some vs => cases vs <;> rfl

/-- The operations given, as `main` sees them. -/
def opsOf (l : List (Operation × Text)) : CliOps :=
  ⟨l.lookup .tvr, l.lookup .ccdIad, l.lookup .ccdCvr, l.lookup .tsi, l.lookup .cvmResults, l.lookup .cvmList,
   l.lookup .identify, l.lookup .autoTlv, l.lookup .berTlv, l.lookup .ingenicoTlv, l.lookup .serviceCode⟩

theorem cliOpsOf_eq (gs : List Given) : cliOpsOf cliTable (matchesOf gs) = .ok (opsOf (operationsOf gs)) := by
  have h := fun op => getString_op gs op
  have h1 := h .tvr
  have h2 := h .ccdIad
  have h3 := h .ccdCvr
  have h4 := h .tsi
  have h5 := h .cvmResults
  have h6 := h .cvmList
  have h7 := h .identify
  have h8 := h .autoTlv
  have h9 := h .berTlv
  have h10 := h .ingenicoTlv
  have h11 := h .serviceCode
  simp only [idOf] at h1 h2 h3 h4 h5 h6 h7 h8 h9 h10 h11
  rw [cliOpsOf, h1, h2, h3, h4, h5, h6, h7, h8, h9, h10, h11]
  rfl

theorem selected_opsOf (l : List (Operation × Text)) (h : l.length ≤ 1) : selected (opsOf l) = l.head? := by
  match l with
  | [] => rfl
  | [(op, v)] => cases op <;> rfl
  | _ :: _ :: _ => simp at h

/-! ### Settings -/

theorem colours_checked (uses : List Use) (gs : List Given) (h : uses.mapM understand = some gs) :
    ∀ s ∈ coloursOf gs, ∃ p ∈ colourNames, s = p.1.toList := by
  intro s hs
  obtain ⟨g, hg, hgs⟩ := List.mem_filterMap.1 hs
  have : ∃ u ∈ uses, understand u = some g := by
    clear hs hgs
    induction uses generalizing gs with
    | nil =>
      rw [List.mapM_nil] at h
      cases h
      cases hg
    | cons u us ih =>
      rw [List.mapM_cons] at h
      cases hu : understand u with
      | none => rw [hu] at h; cases h
      | some g' =>
        rw [hu] at h
        cases hgs : us.mapM understand with
        | none => rw [hgs] at h; cases h
        | some gs' =>
          rw [hgs] at h
          cases h
          rcases List.mem_cons.1 hg with rfl | hg
          · exact ⟨u, List.mem_cons_self, hu⟩
          · obtain ⟨u', hu', h'⟩ := ih gs' hgs hg
            exact ⟨u', List.mem_cons_of_mem _ hu', h'⟩
  obtain ⟨u, -, hu⟩ := this
  cases g with
  | colour v =>
    cases hgs
    rw [understand, Option.bind_eq_some_iff] at hu
    obtain ⟨o, -, ho⟩ := hu
    have := optOf_understand o _ _ ho
    cases this
    replace ho : understandOpt .colour u.values = some (.colour s) := ho
    match hv : u.values with
    | [] => rw [hv] at ho; cases ho
    | [v'] =>
      rw [hv, understandOpt] at ho
      split at ho
      · rename_i hm
        cases ho
        obtain ⟨p, hp, e⟩ := List.mem_map.1 hm
        exact ⟨p, hp, e.symm⟩
      · cases ho
    | _ :: _ :: _ => rw [hv] at ho; cases ho
  | _ => cases hgs

theorem cliOpt_eq {α : Type} (gs : List Given) (o : Opt) (f : List ArgVal → Option α)
    (value : Out (Option α)) (hv : value = .ok (((matched? gs o).map Matched.values).bind f))
    (hd : ∀ vs, defaultsOf o = some vs → (f vs).isSome = true) (hdef : (defaultsOf o).isSome = true)
    (hg : ∀ vs, given? gs o = some vs → (f vs).isSome = true) :
    ∃ c : CliOpt α, cliOpt (matchesOf gs) (idOf o) value = .ok c ∧ givenBy c = (given? gs o).bind f ∧
      (∀ x, c.value = some x → (given? gs o).bind f = some x ∨ ((defaultsOf o).bind f = some x)) := by
  rw [cliOpt, hv]
  rw [matched?] 
  cases hgo : given? gs o with
  | some vs =>
    obtain ⟨x, hx⟩ := Option.isSome_iff_exists.1 (hg vs hgo)
    have hm : matched? gs o = some ⟨idOf o, vs, false⟩ := by rw [matched?, hgo]
    refine ⟨⟨some x, false⟩, ?_, ?_, ?_⟩
    · simp only [Option.map_some, Option.bind_some, hx]
      show (do let d ← isDefaultSource (matchesOf gs) (idOf o); Out.ok _ : Out (CliOpt α)) = _
      rw [isDefaultSource_eq gs o _ hm]
      rfl
    · show some x = f vs
      rw [hx]
    · intro y hy
      exact Or.inl (by rw [← hy]; exact hx)
  | none =>
    obtain ⟨vs, hvs⟩ := Option.isSome_iff_exists.1 hdef
    obtain ⟨x, hx⟩ := Option.isSome_iff_exists.1 (hd vs hvs)
    have hm : matched? gs o = some ⟨idOf o, vs, true⟩ := by rw [matched?, hgo]; simp only [hvs]; rfl
    refine ⟨⟨some x, true⟩, ?_, rfl, ?_⟩
    · simp only [hvs, Option.map_some, Option.bind_some, hx]
      show (do let d ← isDefaultSource (matchesOf gs) (idOf o); Out.ok _ : Out (CliOpt α)) = _
      rw [isDefaultSource_eq gs o _ hm]
      rfl
    · intro y hy
      refine Or.inr ?_
      rw [hvs, ← hy]
      exact hx

theorem given_nonempty {β : Type} (gs : List Given) (o : Opt) (f : List ArgVal → Option β)
    (hf : ∀ g l, optOf g = o → (f (valuesOf g ++ l)).isSome = true) (vs : List ArgVal) (h : given? gs o = some vs) :
    (f vs).isSome = true := by
  induction gs with
  | nil => cases h
  | cons g gs ih =>
    rw [given_cons] at h
    split at h
    · rename_i ho
      cases h
      exact hf g _ ho
    · exact ih h

theorem cliConfigOf_eq (uses : List Use) (gs : List Given) (h : uses.mapM understand = some gs)
    (hc : (sortsOf gs).length + (noSortsOf gs).length ≤ 1) :
    ∃ c, cliConfigOf cliTable (matchesOf gs) = .ok c ∧ ColourChecked c ∧ givenSettings c = settingsGiven gs := by
  obtain ⟨c1, e1, g1, v1⟩ := cliOpt_eq gs .colour firstString (getString cliTable (matchesOf gs) (idOf .colour))
    (by rw [getString, getMany_eq gs _ _ (by decide +kernel)]; rfl)
    (by intro vs hvs; cases hvs; rfl) rfl
    (given_nonempty gs _ _ (by intro g l hg; cases g <;> first | rfl | cases hg))
  obtain ⟨c2, e2, g2, v2⟩ := cliOpt_eq gs .masking (fun vs => some (charsAmong vs))
    (getChars cliTable (matchesOf gs) (idOf .masking))
    (by rw [getChars, getMany_eq gs _ _ (by decide +kernel)]; cases matched? gs .masking <;> rfl)
    (by intro vs hvs; rfl) rfl (by intro vs hvs; rfl)
  obtain ⟨c3, e3, g3, v3⟩ := cliOpt_eq gs .sort firstBool (getBool cliTable (matchesOf gs) (idOf .sort))
    (by rw [getBool, getMany_eq gs _ _ (by decide +kernel)]; rfl)
    (by intro vs hvs; cases hvs; rfl) rfl
    (given_nonempty gs _ _ (by intro g l hg; cases g <;> first | rfl | cases hg))
  obtain ⟨c4, e4, g4, v4⟩ := cliOpt_eq gs .noSort firstBool (getBool cliTable (matchesOf gs) (idOf .noSort))
    (by rw [getBool, getMany_eq gs _ _ (by decide +kernel)]; rfl)
    (by intro vs hvs; cases hvs; rfl) rfl
    (given_nonempty gs _ _ (by intro g l hg; cases g <;> first | rfl | cases hg))
  simp only [idOf] at e1 e2 e3 e4
  refine ⟨⟨c1, c2, c3, c4⟩, ?_, ?_, ?_⟩
  · rw [cliConfigOf, e1, e2, e3, e4]; rfl
  · intro s hs
    rcases v1 s hs with h' | h'
    · rw [given_colour] at h'
      exact colours_checked uses gs h s (List.mem_of_mem_head? h')
    · cases h'
      exact ⟨("auto", .auto), by simp [colourNames], rfl⟩
  · funext k
    cases k with
    | cliColour =>
      show (givenBy c1).bind _ = _
      rw [g1, given_colour]
      rfl
    | maskingCharacters =>
      show (givenBy c2).map _ = _
      have e : ((given? gs .masking).bind fun vs => some (charsAmong vs)) = (given? gs .masking).map charsAmong := by
        cases given? gs .masking <;> rfl
      rw [g2, e, given_masking]
      show _ = if masksOf gs = [] then none else _
      split <;> rfl
    | sortParsedTags =>
      show firstOf [(givenBy c4).map _, (givenBy c3).map _] = Option.map CfgVal.bool _
      rw [g3, g4, given_sort, given_noSort]
      cases hs : sortsOf gs with
      | nil =>
        cases hn : noSortsOf gs with
        | nil => rfl
        | cons b l => rfl
      | cons b l =>
        cases hn : noSortsOf gs with
        | nil => rfl
        | cons b' l' => rw [hs, hn] at hc; simp at hc; omega

/-! ### Execution -/

theorem ends_iff (g : Given) (h1 : g ≠ .help) (h2 : g ≠ .version) : endsReading g = false := by
  cases g <;> first | rfl | exact absurd rfl h1 | exact absurd rfl h2

theorem execute_eq (m : Machine) (file : FigData) (env : Dict) (profile : Option String) (isTty : Bool)
    (uses : List Use) (gs : List Given) (hne : uses ≠ []) (h : uses.mapM understand = some gs)
    (hs : ∀ g ∈ gs, endsReading g = false) (hc : Consistent gs) (c : CliConfig)
    (hcfg : cliConfigOf cliTable (matchesOf gs) = .ok c) :
    execute m file env profile isTty uses = .ran (program m file env profile c isTty (opsOf (operationsOf gs))) := by
  obtain ⟨h1, h2⟩ := (consistent_iff gs hs).1 hc
  rw [execute, getMatches, if_neg hne, resolveUses_ok uses gs h hs, if_pos h1]
  simp only [h2, if_true]
  rw [hcfg, cliOpsOf_eq]
  rfl

theorem resolveUses_understood (seen : List String) (uses : List Use) (us : List (ArgDef × List ArgVal))
    (h : resolveUses cliTable seen uses = .ok us) :
    ∃ gs, uses.mapM understand = some gs ∧ ∀ g ∈ gs, endsReading g = false := by
  induction uses generalizing seen us with
  | nil => exact ⟨[], rfl, by simp⟩
  | cons u uses ih =>
    cases hu : understand u with
    | none =>
      rw [resolveUses] at h
      rcases use_not_understood u hu with h0 | ⟨a, h0, h1⟩
      · rw [h0] at h; cases h
      · rw [h0] at h; simp only [h1] at h; cases h
    | some g =>
      obtain ⟨h0, h1⟩ := use_understood u g hu
      rw [resolveUses, h0] at h
      simp only [h1, action_eq, argOf_id] at h
      have hend : endsReading g = false := by
        refine ends_iff g ?_ ?_
        · rintro rfl; cases h
        · rintro rfl; cases h
      have key : ∀ f : List (ArgDef × List ArgVal) → List (ArgDef × List ArgVal),
          (resolveUses cliTable (idOf (optOf g) :: seen) uses).map f = .ok us →
          ∃ gs, (u :: uses).mapM understand = some gs ∧ ∀ g ∈ gs, endsReading g = false := by
        intro f hf
        cases hr : resolveUses cliTable (idOf (optOf g) :: seen) uses with
        | error e => rw [hr] at hf; cases hf
        | ok us' =>
          obtain ⟨gs, h2, h3⟩ := ih _ _ hr
          refine ⟨g :: gs, ?_, ?_⟩
          · rw [List.mapM_cons, hu, h2]; rfl
          · intro g' hg'
            rcases List.mem_cons.1 hg' with rfl | hg'
            · exact hend
            · exact h3 g' hg'
      rcases Bool.eq_false_or_eq_true (seen.contains (idOf (optOf g))) with hc | hc
      · simp only [hc] at h
        cases g with
        | help => cases hend
        | version => cases hend
        | masking cs => exact key _ h
        | _ => cases h
      · simp only [hc] at h
        cases g with
        | help => cases hend
        | version => cases hend
        | _ => exact key _ h

theorem execute_ran (m : Machine) (file : FigData) (env : Dict) (profile : Option String) (isTty : Bool)
    (uses : List Use) (r : Out (TermColorChoice × Run)) (hr : execute m file env profile isTty uses = .ran r) :
    ∃ gs, uses ≠ [] ∧ uses.mapM understand = some gs ∧ .help ∉ gs ∧ .version ∉ gs ∧ Consistent gs := by
  rw [execute, getMatches] at hr
  by_cases hne : uses = []
  · rw [if_pos hne] at hr; cases hr
  · rw [if_neg hne] at hr
    cases hu : resolveUses cliTable [] uses with
    | error e =>
      rw [hu] at hr
      have hnm : ∀ (seen : List String) (us : List Use) e, resolveUses cliTable seen us = .error e →
          e = .rejected ∨ e = .help ∨ e = .version := by
        intro seen us
        induction us generalizing seen with
        | nil => intro e h; cases h
        | cons u us ih =>
          intro e h
          rw [resolveUses] at h
          split at h
          · cases h; exact Or.inl rfl
          · split at h
            · cases h; exact Or.inl rfl
            · rename_i a _ _ vs _
              have key : ∀ f : List (ArgDef × List ArgVal) → List (ArgDef × List ArgVal),
                  (resolveUses cliTable (a.id :: seen) us).map f = .error e →
                  e = .rejected ∨ e = .help ∨ e = .version := by
                intro f hf
                cases hr : resolveUses cliTable (a.id :: seen) us with
                | error e' => rw [hr] at hf; cases hf; exact ih _ _ hr
                | ok us' => rw [hr] at hf; cases hf
              split at h
              · cases h; exact Or.inr (Or.inl rfl)
              · cases h; exact Or.inr (Or.inr rfl)
              · split at h
                · cases h; exact Or.inl rfl
                · exact key _ h
              · exact key _ h
      rcases hnm _ _ _ hu with rfl | rfl | rfl <;> cases hr
    | ok us =>
      obtain ⟨gs, hgs, hs⟩ := resolveUses_understood _ _ _ hu
      refine ⟨gs, hne, hgs, fun h => ?_, fun h => ?_, ?_⟩
      · cases hs _ h
      · cases hs _ h
      · rw [consistent_iff gs hs]
        rw [resolveUses_ok uses gs hgs hs] at hu
        by_cases h1 : notRepeated [] gs = true
        · rw [if_pos h1] at hu
          cases hu
          refine ⟨h1, ?_⟩
          rw [resolveUses_ok uses gs hgs hs, if_pos h1] at hr
          cases h2 : combinationAllowed (gs.map entry) with
          | true => rfl
          | false => simp only [h2] at hr; cases hr
        · rw [if_neg h1] at hu; cases hu

theorem firstOf_rightType (k : CfgKey) (l : List (Option CfgVal)) (h : ∀ v, some v ∈ l → RightType k v)
    (hs : ∃ v, some v ∈ l) : ∃ v, firstOf l = some v ∧ RightType k v := by
  induction l with
  | nil => obtain ⟨v, hv⟩ := hs; cases hv
  | cons x l ih =>
    cases x with
    | some v => exact ⟨v, rfl, h v List.mem_cons_self⟩
    | none =>
      refine ih (fun v hv => h v (List.mem_cons_of_mem _ hv)) ?_
      obtain ⟨v, hv⟩ := hs
      rcases List.mem_cons.1 hv with e | hv
      · cases e
      · exact ⟨v, hv⟩

theorem settingsGiven_rightType (gs : List Given) (k : CfgKey) (v : CfgVal) (h : settingsGiven gs k = some v) :
    RightType k v := by
  cases k with
  | cliColour =>
    rw [settingsGiven, Option.bind_eq_some_iff] at h
    obtain ⟨s, -, h⟩ := h
    rw [Option.map_eq_some_iff] at h
    obtain ⟨c, -, rfl⟩ := h
    trivial
  | maskingCharacters =>
    rw [settingsGiven] at h
    split at h
    · cases h
    · cases h; trivial
  | sortParsedTags =>
    rw [settingsGiven, Option.map_eq_some_iff] at h
    obtain ⟨b, -, rfl⟩ := h
    trivial

theorem valueInForce_rightType (file : FigData) (env : Dict) (profile : Option String) (gs : List Given)
    (hw : WellTyped file env) (k : CfgKey) : ∃ v, valueInForce file env profile gs k = some v ∧ RightType k v := by
  have hb : ∃ v, builtIn k = some v ∧ RightType k v := by cases k <;> exact ⟨_, rfl, trivial⟩
  obtain ⟨b, hb, htb⟩ := hb
  rw [valueInForce]
  refine firstOf_rightType k _ ?_ ⟨b, by rw [hb]; simp⟩
  intro v hv
  simp only [List.mem_cons, List.not_mem_nil, or_false] at hv
  rcases hv with e | e | e | e | e | e
  · exact settingsGiven_rightType gs k v e.symm
  · exact hw.1 k v e.symm
  · exact hw.2 _ k v e.symm
  · exact hw.2 _ k v e.symm
  · exact hw.2 _ k v e.symm
  · rw [hb] at e; cases e; exact htb

end Pemv
