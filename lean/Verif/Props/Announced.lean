import Verif.Props.Argv
import Verif.Props.Auto
import Verif.Props.Display
import Verif.Props.Process
import Verif.Props.Run

/-!
# C115: what the list of changes announces is so

`CHANGELOG.md` tells users how the program behaves since some release. The theorems quote it.
-/

namespace Pemv

open Spec

/-- **C115.** "Make CLI arguments require a value, or otherwise return an error" (0.3.0): an option for an operation,
for colour or for masking characters is rejected without a value in every command line that is read up to there, and
so is one for an operation with an empty value. -/
theorem c115_values (m : Machine) (file : FigData) (env : Dict) (profile : Option String) (isTty : Bool)
    (pre : List Use) (gs : List Given) (h : pre.mapM understand = some gs) (hh : .help ∉ gs) (hv : .version ∉ gs)
    (hn : NoRepeats gs) (n : OptName) (o : Opt) (hc : (n, o) ∈ optionNames) (post : List Use) :
    (o ∉ [.help, .version, .sort, .noSort] → execute m file env profile isTty (pre ++ ⟨n, []⟩ :: post) = .rejected) ∧
    ((∃ op, o = .operation op) → execute m file env profile isTty (pre ++ ⟨n, [[]]⟩ :: post) = .rejected) := by
  have hl : optionNames.lookup n = some o :=
    (by decide +kernel : ∀ p ∈ optionNames, optionNames.lookup p.1 = some p.2) _ hc
  refine ⟨fun ho => (c70_ends m file env profile isTty pre gs h hh hv hn _ post).1 ?_,
    fun ho => (c70_ends m file env profile isTty pre gs h hh hv hn _ post).1 ?_⟩
  · rw [understand, hl]
    cases o <;> first | rfl | simp at ho
  · obtain ⟨op, rfl⟩ := ho
    rw [understand, hl]
    rfl

/-- An option in the middle of a command line. -/
example (m : Machine) (file : FigData) (env : Dict) (isTty : Bool) :
    execute m file env none isTty ([⟨.long "color", ["never".toList]⟩] ++ ⟨.short 'b', []⟩ :: [⟨.long "help", []⟩]) =
      .rejected :=
  (c115_values m file env none isTty _ [.colour "never".toList] (by decide +kernel) (by decide)
    (by decide) ⟨by decide, by decide, by decide, by decide⟩ _ (.operation .berTlv) (by decide) _).1 (by decide)

/-- **C115.** The announcement is not so for the options about sorting: `--sort` alone is as good as `--sort true`. -/
theorem c115_values_false (m : Machine) (file : FigData) (env : Dict) (profile : Option String) (isTty : Bool)
    (pre post : List Use) (n : OptName) (hc : (n, .sort) ∈ optionNames ∨ (n, .noSort) ∈ optionNames) :
    execute m file env profile isTty (pre ++ ⟨n, []⟩ :: post) =
      execute m file env profile isTty (pre ++ ⟨n, ["true".toList]⟩ :: post) := by
  have hmem : ∀ o, argOf o ∈ cliTable := by
    intro o
    rw [show cliTable = allOpts.map argOf by decide +kernel]
    exact List.mem_map_of_mem (mem_allOpts _)
  rcases hc with hc | hc
  · exact c87_missing_value_partial m file env profile isTty (argOf .sort) (hmem _) (by decide +kernel) "true" (by decide +kernel) n
      ((by decide +kernel : ∀ p ∈ optionNames, p.2 = .sort → (argOf .sort).hasName p.1 = true) _ hc rfl) pre post
  · exact c87_missing_value_partial m file env profile isTty (argOf .noSort) (hmem _) (by decide +kernel) "true" (by decide +kernel) n
      ((by decide +kernel : ∀ p ∈ optionNames, p.2 = .noSort → (argOf .noSort).hasName p.1 = true) _ hc rfl) pre post

example (m : Machine) (file : FigData) (env : Dict) (isTty : Bool) :=
  c115_values_false m file env none isTty [⟨.short 'b', ["5A00".toList]⟩] [] (.long "no-sort") (by decide)

/-- **C115.** "Fix a panic when no actionable arguments are provided, but an option like `colour` *is* provided"
(0.1.4): without an operation, a colour choice leads to the help text; masking characters or a word about sorting, or
a second colour choice, to a rejection. -/
theorem c115_settings_only (m : Machine) (file : FigData) (env : Dict) (profile : Option String) (isTty : Bool)
    (hw : WellTyped file env) (uses : List Use) (gs : List Given) (hne : uses ≠ [])
    (h : uses.mapM understand = some gs) (hh : .help ∉ gs) (hv : .version ∉ gs) (ho : operationsOf gs = []) :
    ((∃ c, gs = [.colour c]) → ∃ c r, execute m file env profile isTty uses = .ran (.ok (c, r)) ∧ ShowsHelp r) ∧
    ((¬ ∃ c, gs = [.colour c]) → execute m file env profile isTty uses = .rejected) := by
  refine ⟨?_, fun hn => c70_inconsistent m file env profile isTty uses gs hne h hh hv fun hc => hn ?_⟩
  · rintro ⟨c, rfl⟩
    obtain ⟨ops, hs, hr, -⟩ := c70_runs m file env profile isTty uses _ hne h hh hv
      ⟨Nat.zero_le 1, Nat.le_refl 1, Nat.zero_le 1, fun hb => by rcases hb with hb | hb | hb <;> exact absurd rfl hb⟩
    obtain ⟨v1, h1, t1⟩ := valueInForce_rightType file env profile [.colour c] hw .cliColour
    obtain ⟨v2, h2, t2⟩ := valueInForce_rightType file env profile [.colour c] hw .maskingCharacters
    obtain ⟨v3, h3, t3⟩ := valueInForce_rightType file env profile [.colour c] hw .sortParsedTags
    cases v1 <;> try cases t1
    cases v2 <;> try cases t2
    cases v3 <;> try cases t3
    refine ⟨_, _, hr _ _ _ h1 h2 h3, (c58_help m _ _ ops).2 ?_⟩
    rw [ho, List.head?_nil, selected, List.findSome?_eq_none_iff] at hs
    simpa using hs
  · have hb : masksOf gs = [] ∧ sortsOf gs = [] ∧ noSortsOf gs = [] := by
      refine ⟨?_, ?_, ?_⟩ <;> apply Classical.byContradiction <;> intro hx
      · obtain ⟨p, hp, -⟩ := hc.block (Or.inl hx); rw [ho] at hp; cases hp
      · obtain ⟨p, hp, -⟩ := hc.block (Or.inr (Or.inl hx)); rw [ho] at hp; cases hp
      · obtain ⟨p, hp, -⟩ := hc.block (Or.inr (Or.inr hx)); rw [ho] at hp; cases hp
    have all : ∀ g ∈ gs, ∃ c, g = .colour c := by
      intro g hg
      cases g with
      | colour c => exact ⟨c, rfl⟩
      | help => exact absurd hg hh
      | version => exact absurd hg hv
      | operation op v => exact absurd (List.filterMap_eq_nil_iff.1 ho _ hg) (by simp [Given.operation?])
      | masking cs => exact absurd (List.filterMap_eq_nil_iff.1 hb.1 _ hg) (by simp [Given.masking?])
      | sort b => exact absurd (List.filterMap_eq_nil_iff.1 hb.2.1 _ hg) (by simp [Given.sort?])
      | noSort b => exact absurd (List.filterMap_eq_nil_iff.1 hb.2.2 _ hg) (by simp [Given.noSort?])
    match gs, all, hc.colour, h with
    | [], _, _, h =>
      cases uses with
      | nil => exact absurd rfl hne
      | cons u us =>
        rw [List.mapM_cons] at h
        cases hu : understand u <;> cases hus : us.mapM understand <;> simp [hu, hus] at h
    | [g], all, _, _ =>
      obtain ⟨c, rfl⟩ := all g (by simp)
      exact ⟨c, rfl⟩
    | g :: g' :: rest, all, hl, _ =>
      obtain ⟨c, rfl⟩ := all g (by simp)
      obtain ⟨c', rfl⟩ := all g' (by simp)
      simp [coloursOf, Given.colour?] at hl

/-- A colour choice; and masking characters. -/
example (m : Machine) (isTty : Bool) :
    (∃ c r, execute m (fun _ _ => none) (fun _ => none) none isTty [⟨.long "colour", ["never".toList]⟩] = .ran (.ok (c, r)) ∧
      ShowsHelp r) ∧
    execute m (fun _ _ => none) (fun _ => none) none isTty [⟨.short 'm', [['#']]⟩] = .rejected :=
  have hw : WellTyped (fun _ _ => none) (fun _ => none) := ⟨fun _ _ h => (nomatch h), fun _ _ _ h => (nomatch h)⟩
  ⟨(c115_settings_only m _ _ none isTty hw _ [.colour "never".toList] (by simp) (by decide +kernel) (by decide) (by decide) rfl).1
      ⟨_, rfl⟩,
    (c115_settings_only m _ _ none isTty hw _ [.masking ['#']] (by simp) (by decide +kernel) (by decide) (by decide) rfl).2
      (by rintro ⟨c, h⟩; cases h)⟩

/-- **C115.** "Add the short alias `-?` to `--help`" (0.4.0): both do the same wherever they stand. -/
theorem c115_question (m : Machine) (file : FigData) (env : Dict) (profile : Option String) (isTty : Bool)
    (pre : List Use) (gs : List Given) (h : pre.mapM understand = some gs) (hh : .help ∉ gs) (hv : .version ∉ gs)
    (hn : NoRepeats gs) (post : List Use) :
    execute m file env profile isTty (pre ++ ⟨.short '?', []⟩ :: post) = .help ∧
    execute m file env profile isTty (pre ++ ⟨.long "help", []⟩ :: post) = .help :=
  ⟨(c70_ends m file env profile isTty pre gs h hh hv hn _ post).2.1 (by decide +kernel),
    (c70_ends m file env profile isTty pre gs h hh hv hn _ post).2.1 (by decide +kernel)⟩

example (m : Machine) (file : FigData) (env : Dict) (isTty : Bool) :=
  c115_question m file env none isTty [⟨.long "tvr", ["00".toList]⟩] [.operation .tvr "00".toList] (by decide +kernel)
    (by decide) (by decide) ⟨by decide, by decide, by decide, by decide⟩ [⟨.long "nonsense", []⟩]

/-- **C115.** "If a tag's data cannot be parsed as a constructed data object, it is assumed to not be a constructed tag and
no error occurs" (0.3.0): a single object is read whatever its value is; if that does not consist of objects, there are
none below it, and the value is kept as it is. -/
theorem c115_constructed {m : Machine} (masks : List Char) (e : Elem) (hw : e.WF) (hz : ¬ e.LongZero)
    (hm : Fits m (concat [e]).length) :
    ∃ n, berParse m (concat [e]) masks = .ok [n] ∧ n.tag.tag = e.tag ∧
      ((∀ ns, berParse m e.value masks ≠ .ok ns) → n.childBlock = []) ∧
      (¬ IsMasked (latin1 e.value) masks → n.tag.data = .normal e.value) := by
  refine ⟨_, (c10_language masks _ hm _).2 ⟨[e], rfl, ⟨fun x hx => ?_, fun x hx => ?_⟩, rfl⟩, rfl, fun hns => ?_, fun hk => ?_⟩
  · rw [List.mem_singleton.1 hx]; exact hw
  · simp only [List.getLast?_singleton, Option.some.injEq] at hx; rw [← hx]; exact hz
  · simp only [nodeOf, RawEmvNode.childBlock]
    cases hp : berParse m e.value masks with
    | ok b => exact absurd hp (hns b)
    | _ => exact ite_self _
  · simp only [nodeOf, RawEmvNode.tag, dataOf, hk, if_false]

/-- A template in which there is half an object. -/
example : berParse .debug64 [0x70, 0x01, 0x5A] [] = .ok [.mk ⟨[0x70], .application, .constructed, .normal [0x5A]⟩ []] := rfl

/-- **C115.** What is shown of such an object is what would be shown if its tag were not a constructed one. -/
theorem c115_as_primitive (m : Machine) (tag : List Byte) (cls cls' : TagClass) (typ typ' : DataObjectType) (data : EmvData)
    (i : Nat) (raw : Bool) :
    (processEmvTag ⟨tag, cls, typ, data⟩).map (fun p => displayTag m p i raw) =
      (processEmvTag ⟨tag, cls', typ', data⟩).map (fun p => displayTag m p i raw) := by
  by_cases hd : ∃ dec, (tag, dec) ∈ decoders
  · obtain ⟨dec, hdec⟩ := hd
    obtain ⟨n, hn, h1, h2⟩ := processEmvTag_decoder hdec cls typ
    obtain ⟨n', hn', h1', h2'⟩ := processEmvTag_decoder hdec cls' typ'
    rw [hn] at hn'
    cases hn'
    cases data with
    | masked => rw [h1, h1']; rfl
    | normal d =>
      rw [h2, h2']
      cases dec d with
      | err e => cases tolerated.lookup tag with
        | none => rfl
        | some q => obtain ⟨e', n⟩ := q; by_cases he : e = e' <;> simp only [he, if_true, if_false] <;> rfl
      | _ => rfl
  · rcases processEmvTag_cases ⟨tag, cls, typ, data⟩ with ⟨dec, d, hdec, -⟩ | ⟨dec, name, hdec, -⟩ | ⟨-, hc⟩
    · exact absurd ⟨dec, hdec⟩ hd
    · exact absurd ⟨dec, hdec⟩ hd
    rcases processEmvTag_cases ⟨tag, cls', typ', data⟩ with ⟨dec, d, hdec, -⟩ | ⟨dec, name, hdec, -⟩ | ⟨-, hc'⟩
    · exact absurd ⟨dec, hdec⟩ hd
    · exact absurd ⟨dec, hdec⟩ hd
    rcases hc with ⟨n, hn, hc⟩ | ⟨hn, hc⟩ <;> rcases hc' with ⟨n', hn', hc'⟩ | ⟨hn', hc'⟩ <;>
      simp only at hn hn' <;> rw [hn] at hn' <;> cases hn' <;> rw [hc, hc'] <;> rfl

example (m : Machine) := c115_as_primitive m [0x70] .application .application .constructed .primitive (.normal [0x5A]) 0 true

/-- **C115.** "An empty value would match to any kind of TLV data" (0.4.0, fixed): it matches none. -/
theorem c115_empty (m : Machine) (masks : List Char) : autoParse m [] masks = .err .unrecognised := by
  rfl

example : autoParse .debug64 "5A00".toList [] = .ok (.berTlv, [.mk ⟨[0x5A], .application, .primitive, .normal []⟩ []]) := by
  decide +kernel

/-- **C115.** "The CVM List breakdown now only shows the X and Y values if they're being used" (0.4.0) is not so: here
no rule refers to the amounts, and they are shown. They are shown more often than announced, never less (C56). -/
theorem c115_amounts_false (m : Machine) : ∃ bs v, CvmList.tryFrom bs = .ok v ∧
    (¬ ∃ p ∈ pairs (bs.drop 8), p.2.toNat ∈ [6, 7, 8, 9]) ∧
    ∃ rest, Shows (displayCvmList m v 0) (showLines 0 (Spec.entry "X Value:"
      " 001 (implicit decimal point based on application currency)".toList :: Spec.entry "Y Value:" " 000".toList :: rest)) := by
  obtain ⟨v, hv⟩ : ∃ v, CvmList.tryFrom [0, 0, 0, 1, 0, 0, 0, 0, 0x1E, 0x03] = .ok v := ⟨_, rfl⟩
  obtain ⟨amounts, hs, hyes, -⟩ := c56_amounts m _ v hv 0 (by decide)
  obtain ⟨w, rfl, rfl⟩ := hyes (Or.inl (by decide +kernel))
  have ex : ' ' :: digitsAtLeast (max 3 (max (decimal (beValue ([0, 0, 0, 1, 0, 0, 0, 0, 0x1E, 0x03].take 4))).length
      (decimal (beValue (([0, 0, 0, 1, 0, 0, 0, 0, 0x1E, 0x03].drop 4).take 4))).length))
      (beValue ([0, 0, 0, 1, 0, 0, 0, 0, 0x1E, 0x03].take 4)) ++ " (implicit decimal point based on application currency)".toList =
      " 001 (implicit decimal point based on application currency)".toList := by decide +kernel
  have ey : ' ' :: digitsAtLeast (max 3 (max (decimal (beValue ([0, 0, 0, 1, 0, 0, 0, 0, 0x1E, 0x03].take 4))).length
      (decimal (beValue (([0, 0, 0, 1, 0, 0, 0, 0, 0x1E, 0x03].drop 4).take 4))).length))
      (beValue (([0, 0, 0, 1, 0, 0, 0, 0, 0x1E, 0x03].drop 4).take 4)) = " 000".toList := by decide +kernel
  rw [ex, ey, List.append_assoc, List.cons_append, List.cons_append] at hs
  exact ⟨_, v, hv, by decide +kernel, _, hs⟩

/-- The tags named in the features of `CHANGELOG.md`, 0.1.1 to 0.3.0, in this order, and that of the TVR. -/
def announcedTags : List (List Byte) :=
  [[0x95], [0x9F, 0x10], [0x9B], [0x9F, 0x34], [0x5F, 0x30], [0x8E], [0x9F, 0x0D], [0x9F, 0x0E], [0x9F, 0x0F], [0x9C], [0x8A],
    [0x9F, 0x35], [0x9F, 0x33], [0x9F, 0x40], [0x9F, 0x39]]

/-- **C115.** "Add support for parsing … values, which are in tag …": the values in these tags are decoded, and no
others. An acceptable value of one of them is shown decoded unless it is of an unknown kind that is tolerated. -/
theorem c115_tags (t : RawEmvTag) (d : List Byte) (hd : t.data = .normal d) :
    (∀ p, processEmvTag t = .ok p → valueOf p ≠ none → t.tag ∈ announcedTags) ∧
    (t.tag ∈ announcedTags → Acceptable t.tag d → ∃ p, processEmvTag t = .ok p ∧
      (valueOf p ≠ none ∨ ∃ e n, (t.tag, e, n) ∈ tolerated ∧ nameOf p = some n)) := by
  rcases processEmvTag_cases t with ⟨dec, d', hdec, hd', hc⟩ | ⟨dec, name, -, hm, -⟩ | ⟨hno, hc⟩
  · rw [hd] at hd'
    cases hd'
    refine ⟨fun p _ _ => (by decide +kernel : ∀ t ∈ decoders.map Prod.fst, t ∈ announcedTags) _
      (List.mem_map_of_mem (f := Prod.fst) hdec), fun _ ha => ?_⟩
    rcases hc with ⟨name, p, -, -, hc, -⟩ | ⟨e, n, -, htol, hc, -⟩ | ⟨e, -, -, hna⟩
    · exact ⟨_, hc, Or.inl (by simp [valueOf])⟩
    · exact ⟨_, hc, Or.inr ⟨e, n, lookup_mem htol, rfl⟩⟩
    · exact absurd ha hna
  · rw [hd] at hm; cases hm
  · refine ⟨fun p hp hv => ?_, fun ht _ => ?_⟩
    · rcases hc with ⟨name, -, hc⟩ | ⟨-, hc⟩ <;> rw [hc] at hp <;> cases hp <;> exact absurd rfl hv
    · obtain ⟨⟨_, dec⟩, hdec, rfl⟩ := List.mem_map.1
        ((by decide +kernel : ∀ t ∈ announcedTags, t ∈ decoders.map Prod.fst) _ ht)
      exact absurd hdec (hno dec)

/-- A transaction type, and one that is not known. -/
example : (processEmvTag ⟨[0x9C], .contextSpecific, .primitive, .normal [0x00]⟩).map (fun p => (valueOf p).isSome) = .ok true ∧
    (processEmvTag ⟨[0x9C], .contextSpecific, .primitive, .normal [0x77]⟩).map (fun p => (valueOf p).isSome) = .ok false := by
  decide +kernel

end Pemv
