import Verif.Proofs.Changelog
import Verif.Spec.Release
import Verif.Proofs.Release

/-!
# C114: which commits the list of changes tells of
-/

namespace Pemv

open Spec

/-- **C114.** The group of a commit is the one it is to be listed under. -/
theorem c114_group (message g : Text) : groupOf message = some g ↔ ListedUnder message g := by
  cases hc : parseSubject (messageLines message).1 with
  | none =>
    constructor
    · intro h; rw [groupOf, hc] at h; cases h
    · rintro ⟨type, bang, d, h, -⟩
      rw [(conventional_iff message ⟨type, bang, d⟩).2 h] at hc; cases hc
  | some conv =>
    have hconv := (conventional_iff message conv).1 hc
    have huniq : ∀ {type bang d}, IsConventional message type bang d → type = conv.type ∧ bang = conv.bang := by
      intro type bang d h
      have := (conventional_iff message ⟨type, bang, d⟩).2 h
      rw [hc] at this
      cases this
      exact ⟨rfl, rfl⟩
    have hbr : (conv.bang || hasBreakingNote message) = true ↔ IsBreaking message conv.bang := by
      rw [Bool.or_eq_true, hasBreakingNote_iff]; rfl
    rw [groupOf_eq message conv hc]
    by_cases hs : IsSkipped message
    · rw [parserFor_skipped message hs]
      cases hb : conv.bang || hasBreakingNote message with
      | true =>
        show some conv.type = some g ↔ _
        constructor
        · intro h; cases h
          exact ⟨_, _, _, hconv, Or.inl ⟨hs, hbr.1 hb, rfl⟩⟩
        · rintro ⟨type, bang, d, h, h' | h' | h' | h'⟩
          · rw [h'.2.2, (huniq h).1]
          all_goals exact absurd hs h'.1
      | false =>
        show none = some g ↔ _
        constructor
        · intro h; cases h
        · rintro ⟨type, bang, d, h, h' | h' | h' | h'⟩
          · have := h'.2.1
            rw [(huniq h).2] at this
            rw [hbr.2 this] at hb; cases hb
          all_goals exact absurd hs h'.1
    · by_cases hh : ∃ g', HasHeading message g'
      · obtain ⟨g', hg'⟩ := hh
        rw [parserFor_heading message g' hs hg']
        show some g' = some g ↔ _
        constructor
        · intro h; cases h
          exact ⟨_, _, _, hconv, Or.inr (Or.inl ⟨hs, hg'⟩)⟩
        · rintro ⟨type, bang, d, h, h' | h' | h' | h'⟩
          · exact absurd h'.1 hs
          · rw [heading_unique hg' h'.2]
          · exact absurd hg' (h'.2.1 g')
          · exact absurd hg' (h'.2.1 g')
      · have hh' : ∀ g, ¬ HasHeading message g := fun g h => hh ⟨g, h⟩
        rw [parserFor_plain message hs hh']
        cases hm : (bodyLines message).any (hasWord "security".toList) with
        | true =>
          show some "Security".toList = some g ↔ _
          have hm' := (security_iff message).1 hm
          constructor
          · intro h; cases h
            exact ⟨_, _, _, hconv, Or.inr (Or.inr (Or.inl ⟨hs, hh', hm', rfl⟩))⟩
          · rintro ⟨type, bang, d, h, h' | h' | h' | h'⟩
            · exact absurd h'.1 hs
            · exact absurd h'.2 (hh' _)
            · rw [h'.2.2.2]
            · exact absurd hm' h'.2.2.1
        | false =>
          show some conv.type = some g ↔ _
          have hm' : ¬ MentionsSecurity message := fun h => by rw [(security_iff message).2 h] at hm; cases hm
          constructor
          · intro h; cases h
            exact ⟨_, _, _, hconv, Or.inr (Or.inr (Or.inr ⟨hs, hh', hm', rfl⟩))⟩
          · rintro ⟨type, bang, d, h, h' | h' | h' | h'⟩
            · exact absurd h'.1 hs
            · exact absurd h'.2 (hh' _)
            · exact absurd h'.2.2.1 hm'
            · rw [h'.2.2.2, (huniq h).1]

/-- A group for each kind. -/
example : groupOf "fix(ber)!: Do not read past the end.".toList = some "Bug Fixes".toList ∧
    groupOf "style: Indent.\n\nNo matter of security.".toList = some "Security".toList ∧
    groupOf "style: Indent.".toList = some "style".toList ∧ groupOf "Indent.".toList = none ∧
    groupOf "revert: Indent.".toList = none ∧ groupOf "revert!: Indent.".toList = some "revert".toList := by decide +kernel

/-- **C114.** A commit is listed if and only if its message is a conventional one, unless it is about the release itself
or undoes another and no breaking change. -/
theorem c114_listed (message : Text) : (groupOf message).isSome = true ↔
    ∃ type bang description, IsConventional message type bang description ∧
      (¬ IsSkipped message ∨ IsBreaking message bang) := by
  rw [Option.isSome_iff_exists]
  constructor
  · rintro ⟨g, h⟩
    obtain ⟨type, bang, d, h, h' | h' | h' | h'⟩ := (c114_group message g).1 h
    · exact ⟨_, _, _, h, Or.inr h'.2.1⟩
    all_goals exact ⟨_, _, _, h, Or.inl h'.1⟩
  · rintro ⟨type, bang, d, h, h'⟩
    by_cases hs : IsSkipped message
    · exact ⟨type, (c114_group message type).2 ⟨_, _, _, h, Or.inl ⟨hs, h'.resolve_left (fun h => h hs), rfl⟩⟩⟩
    · by_cases hh : ∃ g, HasHeading message g
      · obtain ⟨g, hg⟩ := hh
        exact ⟨g, (c114_group message g).2 ⟨_, _, _, h, Or.inr (Or.inl ⟨hs, hg⟩)⟩⟩
      · have hh' : ∀ g, ¬ HasHeading message g := fun g h => hh ⟨g, h⟩
        by_cases hm : MentionsSecurity message
        · exact ⟨_, (c114_group message _).2 ⟨_, _, _, h, Or.inr (Or.inr (Or.inl ⟨hs, hh', hm, rfl⟩))⟩⟩
        · exact ⟨_, (c114_group message _).2 ⟨_, _, _, h, Or.inr (Or.inr (Or.inr ⟨hs, hh', hm, rfl⟩))⟩⟩

/-- **C114.** The groups are in the order of their names, none is there twice, none is empty, and under each are exactly
the commits that belong there, in the order of the history. -/
theorem c114_sections (history : List HistoryCommit) :
    (groupCommits history).Pairwise (fun x y => x.1 < y.1) ∧
    (∀ g cs, (g, cs) ∈ groupCommits history → cs ≠ [] ∧ cs.Sublist history ∧
      ∀ c, c ∈ cs ↔ c ∈ history ∧ ListedUnder c.message g) ∧
    ∀ c ∈ history, ∀ g, ListedUnder c.message g → ∃ cs, (g, cs) ∈ groupCommits history ∧ c ∈ cs := by
  obtain ⟨h1, h2⟩ := groupCommits_holds history
  refine ⟨h1, fun g cs h => ?_, fun c hc g hg => ?_⟩
  · obtain ⟨h3, h4⟩ := (h2 g cs).1 h
    refine ⟨h3, by rw [h4]; exact List.filter_sublist, fun c => ?_⟩
    rw [h4, List.mem_filter, beq_iff_eq, c114_group]
  · have hm : c ∈ history.filter fun c => groupOf c.message == some g :=
      List.mem_filter.2 ⟨hc, by rw [beq_iff_eq]; exact (c114_group _ _).2 hg⟩
    exact ⟨_, (h2 g _).2 ⟨List.ne_nil_of_mem hm, rfl⟩, hm⟩

/-- Two groups. -/
example : groupCommits [⟨"1".toList, "test: A".toList⟩, ⟨"2".toList, "feat: B".toList⟩, ⟨"3".toList, "Merge".toList⟩,
      ⟨"4".toList, "testing: C".toList⟩] =
    [("Features".toList, [⟨"2".toList, "feat: B".toList⟩]),
      ("Testing".toList, [⟨"1".toList, "test: A".toList⟩, ⟨"4".toList, "testing: C".toList⟩])] := by decide +kernel

/-- **C114.** The line of a listed commit is its description with a capital letter and the first seven digits of its hash
(twice), marked if it is a breaking change. -/
theorem c114_line (c : HistoryCommit) (type : Text) (bang : Bool) (d : Char) (escription : Text)
    (h : IsConventional c.message type bang (d :: escription)) :
    ∃ mark, commitLine c = "- ".toList ++ mark ++ d.toUpper :: escription ++ " ([".toList ++ c.id.take 7 ++
        "](https://github.com/zedseven/pemv/commit/".toList ++ c.id.take 7 ++ "))".toList ∧
      (IsBreaking c.message bang → mark = "[**breaking**] ".toList) ∧ (¬ IsBreaking c.message bang → mark = []) := by
  have hc := (conventional_iff c.message ⟨type, bang, d :: escription⟩).2 h
  have hbr : (bang || hasBreakingNote c.message) = true ↔ IsBreaking c.message bang := by
    rw [Bool.or_eq_true, hasBreakingNote_iff]; rfl
  refine ⟨if bang || hasBreakingNote c.message then "[**breaking**] ".toList else [], ?_, ?_, ?_⟩
  · rw [commitLine, hc]; rfl
  · intro hb; rw [if_pos (hbr.2 hb)]
  · intro hb; rw [if_neg (fun h => hb (hbr.1 h))]

/-- The part about version 0.4.1 in CHANGELOG.md. -/
example : releaseLines "v0.4.1".toList "2022-10-25".toList
      [⟨"18f8496000000000000000000000000000000000".toList, "refactor: Apply Clippy suggestions.".toList⟩] =
    ["## [0.4.1] - 2022-10-25".toList, "### Refactor".toList,
      "- Apply Clippy suggestions. ([18f8496](https://github.com/zedseven/pemv/commit/18f8496))".toList] := by
  decide +kernel

/-- **C114.** The message the release script gives its commit is not one that is listed, whatever the tag (without line
breaks). -/
theorem c114_silent (tag : Text) (ht : '\n' ∉ tag) :
    groupOf ("misc(release): Prepare for ".toList ++ tag ++ ['.']) = none := by
  rw [← Option.not_isSome_iff_eq_none, c114_listed]
  have one : linesOf ("misc(release): Prepare for ".toList ++ tag ++ ['.']) =
      ["misc(release): Prepare for ".toList ++ tag ++ ['.']] := by
    refine linesOf_one _ ?_
    rw [List.mem_append, List.mem_append]
    rintro ((h | h) | h)
    · exact absurd h (by decide +kernel)
    · exact ht h
    · exact absurd h (by decide)
  rintro ⟨type, bang, d, h, h' | h' | h'⟩
  · exact h' (Or.inl ⟨tag ++ ['.'], by rw [List.append_assoc]⟩)
  · subst h'
    have hp : parseSubject (messageLines ("misc(release): Prepare for ".toList ++ tag ++ ['.'])).1 =
        some ⟨"misc".toList, false, "Prepare for ".toList ++ tag ++ ['.']⟩ := by
      refine (conventional_iff _ ⟨_, _, _⟩).2 ⟨"(release)".toList, " ".toList, [], ?_, (by decide : "misc".toList ≠ []),
        (by decide : ∀ c ∈ "misc".toList, c ∉ "():! \t".toList), Or.inr ⟨"release".toList, by decide +kernel, by decide, by decide⟩, by decide, by simp, by simp⟩
      rw [one]
      have : "misc(release): Prepare for ".toList = "misc".toList ++ "(release)".toList ++ [] ++ ":".toList ++ " ".toList ++
          "Prepare for ".toList := by decide +kernel
      rw [this]
      simp
    rw [(conventional_iff _ ⟨type, true, d⟩).2 h] at hp
    cases hp
  · obtain ⟨l, hl, -⟩ := h'
    rw [one] at hl
    cases hl

/-- **C114.** The commit the release script makes is never listed, whatever the tag. -/
theorem c114_release (t : Tools) (tag : Text) (r : Repo) (ht : '\n' ∉ tag) :
    (release t (some tag) r).repo.commits = r.commits ∨
    ∃ c, (release t (some tag) r).repo.commits = c :: r.commits ∧ ∀ g, ¬ ListedUnder c.message g := by
  unfold release
  repeat' split
  all_goals first
    | exact Or.inl rfl
    | exact Or.inr ⟨_, rfl, fun g h => by
        have h' := (c114_group _ g).2 h
        rw [show groupOf ("misc(release): Prepare for ".toList ++ (some tag).getD [] ++ ['.']) = none from c114_silent tag ht] at h'
        cases h'⟩

/-- A release. -/
example : groupOf "misc(release): Prepare for v0.4.3.".toList = none := by decide +kernel

/-- **C114.** CHANGELOG.md is the header, what is new, the releases of the history, the newest first, and the footer; and
every history has releases. -/
theorem c114_whole (tag date : Text) (h : List Tagged) :
    (∃ rs rest, Releases h rs rest) ∧ ∀ rs rest, Releases h rs rest →
      changelogLines tag date h =
        "# Changelog".toList :: "All notable changes to this project will be documented in this file.".toList ::
          releaseLines tag date rest ++ (rs.reverse.map fun r => releaseLines r.1 r.2.1 r.2.2).flatten ++
          ["<!-- generated by git-cliff -->".toList] ∧
      tagNotes tag date h = releaseLines tag date rest := by
  refine ⟨releases_exist h, fun rs rest hr => ?_⟩
  have h1 := splitReleases_releases hr
  refine ⟨?_, by rw [tagNotes, h1]⟩
  rw [changelogLines, h1]
  simp only [List.reverse_append, List.reverse_cons, List.reverse_nil, List.nil_append, List.cons_append,
    changelogHeader, changelogFooter, List.flatMap_def, List.append_assoc, List.map_cons, List.flatten_cons]

/-- One release, and one new commit. -/
example : Releases [⟨⟨"1".toList, "fix: A".toList⟩, none⟩, ⟨⟨"2".toList, "fix: B".toList⟩, some ("v1".toList, "today".toList)⟩,
      ⟨⟨"3".toList, "fix: C".toList⟩, none⟩]
    [("v1".toList, "today".toList, [⟨"1".toList, "fix: A".toList⟩, ⟨"2".toList, "fix: B".toList⟩])]
    [⟨"3".toList, "fix: C".toList⟩] :=
  .release [⟨"1".toList, "fix: A".toList⟩] ⟨"2".toList, "fix: B".toList⟩ _ _ (.new [⟨"3".toList, "fix: C".toList⟩])

/-- **C114.** The notes of a tag are what CHANGELOG.md tells of its release. The notes are written after the commit of
the release is made, the list before; but that commit is not listed. -/
theorem c114_notes (tag date : Text) (h : List Tagged) (c : HistoryCommit) (ht : '\n' ∉ tag)
    (hc : c.message = "misc(release): Prepare for ".toList ++ tag ++ ".".toList) :
    ∃ former, changelogLines tag date h =
      changelogHeader ++ tagNotes tag date (h ++ [⟨c, none⟩]) ++ former := by
  have hn : groupOf c.message = none := by rw [hc]; exact c114_silent tag ht
  refine ⟨(splitReleases [] h).1.reverse.flatMap (fun r => releaseLines r.1 r.2.1 r.2.2) ++ changelogFooter, ?_⟩
  have h1 : (splitReleases [] (h ++ [⟨c, none⟩])).2 = (splitReleases [] h).2 ++ [c] := by
    rw [splitReleases_append]
    rfl
  rw [changelogLines, tagNotes, h1, releaseLines_skip _ _ _ _ hn, List.reverse_append, List.reverse_singleton,
    List.singleton_append, List.flatMap_cons, List.append_assoc, List.append_assoc, List.append_assoc]

/-- **C114.** The next list adds what is new on top, and what it tells of all former releases is word for word what the
list before told. -/
theorem c114_stable (tag date tag' date' : Text) (h later : List Tagged) (c : HistoryCommit) (ht : '\n' ∉ tag)
    (hc : c.message = "misc(release): Prepare for ".toList ++ tag ++ ".".toList) (hl : ∀ x ∈ later, x.tag = none) :
    ∃ told, changelogLines tag date h = changelogHeader ++ told ∧
      changelogLines tag' date' (h ++ [⟨c, some (tag, date)⟩] ++ later) =
        changelogHeader ++ releaseLines tag' date' (later.map Tagged.commit) ++ told := by
  have hn : groupOf c.message = none := by rw [hc]; exact c114_silent tag ht
  refine ⟨_, by rw [changelogLines, List.append_assoc], ?_⟩
  have h1 : splitReleases [] (h ++ [⟨c, some (tag, date)⟩] ++ later) =
      ((splitReleases [] h).1 ++ [(tag, date, (splitReleases [] h).2 ++ [c])], later.map Tagged.commit) := by
    rw [splitReleases_append, splitReleases_append]
    show ((splitReleases [] h).1 ++ [(tag, date, (splitReleases [] h).2 ++ [c])] ++ (splitReleases [] later).1,
      (splitReleases [] later).2) = _
    rw [splitReleases_untagged later [] hl, List.append_nil, List.nil_append]
  rw [changelogLines, h1]
  simp only [List.reverse_append, List.reverse_cons, List.reverse_nil, List.nil_append, List.flatMap_cons,
    List.append_assoc, List.cons_append, releaseLines_skip _ _ _ _ hn]

/-- Two releases. -/
example : changelogLines "v2".toList "later".toList
      [⟨⟨"1".toList, "fix: A".toList⟩, none⟩,
        ⟨⟨"2".toList, "misc(release): Prepare for v1.".toList⟩, some ("v1".toList, "today".toList)⟩,
        ⟨⟨"3".toList, "feat: B".toList⟩, none⟩] =
    List.map String.toList ["# Changelog", "All notable changes to this project will be documented in this file.",
      "## [2] - later", "### Features", "- B ([3](https://github.com/zedseven/pemv/commit/3))",
      "## [1] - today", "### Bug Fixes", "- A ([1](https://github.com/zedseven/pemv/commit/1))",
      "<!-- generated by git-cliff -->"] := by decide +kernel

/-- **C114.** Below the line with the version, the lines of a release are the groups of its commits, each with a line for
its name and one for each of its commits. -/
theorem c114_lines (tag date : Text) (cs : List HistoryCommit) :
    (releaseLines tag date cs).tail =
      ((groupCommits cs).map fun g =>
        ("### ".toList ++ (g.1.take 1).map Char.toUpper ++ g.1.drop 1) :: g.2.map commitLine).flatten := by
  have hu : ∀ s : Text, upperFirst s = (s.take 1).map Char.toUpper ++ s.drop 1
    | [] => rfl
    | c :: s => rfl
  rw [releaseLines, List.tail_cons, List.flatMap_def]
  simp only [hu, List.append_assoc]

/-- The group of a type is written with a capital letter. -/
example : (releaseLines "v1".toList "today".toList [⟨"1".toList, "style: A".toList⟩]).tail =
    ["### Style".toList, "- A ([1](https://github.com/zedseven/pemv/commit/1))".toList] := by decide +kernel

/-- **C114.** The version in the list of changes is the version the release script writes into the manifest, unless that
begins with a `v` (of the tag `vv1`, one `v` is dropped there and two are here). -/
theorem c114_version (tag version date : Text) (history : List HistoryCommit) (hv : IsVersionOf tag version) :
    (releaseLines tag date history).head? = some ("## [".toList ++ version ++ "] - ".toList ++ date) ↔
      version.head? ≠ some 'v' := by
  have hd : ∀ s : Text, s.dropWhile (· == 'v') = s ↔ s.head? ≠ some 'v' := by
    intro s
    cases s with
    | nil => simp
    | cons c s =>
      by_cases h : c = 'v'
      · subst h
        constructor
        · intro h
          have := congrArg List.length h
          rw [List.dropWhile_cons, if_pos (by decide)] at this
          have h2 := (List.dropWhile_suffix (· == 'v') (l := s)).length_le
          rw [List.length_cons] at this
          omega
        · intro h; exact absurd rfl h
      · rw [List.dropWhile_cons, if_neg (by simpa using h)]
        simp [h]
  have hw : withoutVs tag = version.dropWhile (· == 'v') := by
    rcases hv with rfl | ⟨rfl, -⟩
    · rw [withoutVs, List.dropWhile_cons, if_pos (by decide)]
    · rfl
  rw [releaseLines, List.head?_cons, Option.some.injEq, List.append_left_inj, List.append_left_inj,
    List.append_right_inj, hw, hd]

/-- Two versions. -/
example : (releaseLines "vv1".toList "today".toList []).head? = some "## [1] - today".toList := by decide +kernel

/-- **C114 is not** that commits about security are under that heading: whatever begins with one of the words for another
heading is under that. Nor is every heading there only once: groups that differ in the case of the first letter have the
same heading. And the words need not be the whole type. -/
theorem c114_false :
    (∀ message g, HasHeading message g → ¬ IsSkipped message → ListedUnder message "Security".toList → False) ∧
    (MentionsSecurity "fix: A\n\nThis is about security.".toList ∧
      groupOf "fix: A\n\nThis is about security.".toList = some "Bug Fixes".toList) ∧
    releaseLines "v1".toList "today".toList
        [⟨"1".toList, "style: A\nfor security".toList⟩, ⟨"2".toList, "security: B".toList⟩] =
      ["## [1] - today".toList, "### Security".toList, "- A ([1](https://github.com/zedseven/pemv/commit/1))".toList,
        "### Security".toList, "- B ([2](https://github.com/zedseven/pemv/commit/2))".toList] ∧
    groupOf "docker: A".toList = some "Documentation".toList := by
  refine ⟨?_, ⟨?_, by decide +kernel⟩, by decide +kernel, by decide +kernel⟩
  · rintro message g hg hs ⟨type, bang, d, h, h' | h' | h' | h'⟩
    · exact hs h'.1
    · obtain ⟨p, x, hm, -, hx⟩ := h'.2
      have key : ∀ e ∈ changeHeadings, "Security".toList ≠ e.2.toList := by decide +kernel
      exact key _ hm hx
    · exact h'.2.1 g hg
    · exact h'.2.1 g hg
  · refine ⟨[[]], "This is about security.".toList, [], by decide +kernel, ?_, "This is about ".toList, ".".toList,
      by decide +kernel⟩
    have : ∀ x ∈ [[]] ++ ["This is about security.".toList], isBreakingNote x = false := by decide +kernel
    intro x hx hn
    have h := this x hx
    rw [(isBreakingNote_iff x).2 hn] at h
    cases h

end Pemv
