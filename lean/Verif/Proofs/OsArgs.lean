import Verif.Proofs.Argv
import Verif.Model.OsArgs

/-!
# An argument that is not text does what some arguments that are do
-/

namespace Pemv

open Spec

theorem lexOs_text (table : List ArgDef) (ts : List Text) : ∀ p, lexOs table p (ts.map .text) = lexArgs table p ts := by
  induction ts with
  | nil => intro p; rfl
  | cons t ts ih =>
    intro p
    rw [List.map_cons, lexOs, lexArgs]
    cases tokenOf t with
    | escape => simp
    | long n v => cases v <;> simp [ih]
    | short cs => simp [ih]
    | plain v => cases p <;> simp [ih]

/-- The flag an argument that is not text begins with, if any. -/
def leadingFlag : Text → List Char
  | '-' :: c :: _ => if c = 'h' ∨ c = '?' ∨ c = 'V' then [c] else []
  | _ => []

theorem flag_begin : ∀ c ∈ ['h', '?', 'V'], begin cliTable (.short c) = ([⟨.short c, []⟩], none) := by decide +kernel

theorem lexArgs_lead (lead : Text) (p : Option Pending) :
    lexArgs cliTable p ((leadingFlag lead).map (fun c => ['-', c]) ++ [['-', '-'], ['x']]) =
      (flush p ++ (leadingFlag lead).map (fun c => ⟨.short c, []⟩), true) := by
  have hd : ∀ p, lexArgs cliTable p [['-', '-'], ['x']] = (flush p, true) := fun _ => rfl
  have h1 : ∀ c ∈ ['h', '?', 'V'], lexArgs cliTable p ([['-', c]] ++ [['-', '-'], ['x']]) =
      (flush p ++ [⟨.short c, []⟩], true) := by
    intro c hc
    have hb := flag_begin c hc
    have ht : tokenOf ['-', c] = .short [c] := by
      have : c ≠ '-' := by rintro rfl; revert hc; decide
      rw [tokenOf]
      · exact fun e _ => this e
      · exact this
    rw [List.cons_append, List.nil_append, lexArgs, ht]
    simp only [shortCluster, hb, hd, flush, List.append_nil]
  match lead with
  | [] => simp [leadingFlag, hd]
  | [_] => simp [leadingFlag, hd]
  | a :: c :: r =>
    by_cases ha : a = '-'
    · subst ha
      rw [leadingFlag]
      split
      · exact h1 c (by simpa using ‹_›)
      · simp [hd]
    · rw [leadingFlag]
      · simp [hd]
      · intro c' r' e; exact ha (by injection e)

theorem lexOs_broken (lead : Text) (rest : List OsArg) (ts : List Text) : ∀ p, ∃ u b,
    lexOs cliTable p (ts.map .text ++ .broken lead :: rest) =
      (u ++ (if b = true then brokenUses cliTable lead else []), true) ∧
    lexArgs cliTable p (ts ++ ((leadingFlag lead).map (fun c => ['-', c]) ++ [['-', '-'], ['x']])) =
      (u ++ (if b = true then (leadingFlag lead).map (fun c => ⟨.short c, []⟩) else []), true) := by
  induction ts with
  | nil =>
    intro p
    exact ⟨flush p, true, by simp [lexOs], by rw [List.nil_append, lexArgs_lead]; simp⟩
  | cons t ts ih =>
    intro p
    rw [List.map_cons, List.cons_append, List.cons_append, lexOs, lexArgs]
    cases tokenOf t with
    | escape => exact ⟨flush p, false, by simp, by simp⟩
    | long n v =>
      cases v with
      | some v =>
        obtain ⟨u, b, h1, h2⟩ := ih none
        exact ⟨flush p ++ ⟨.long (String.ofList n), [v]⟩ :: u, b, by simp [h1], by simp only [h2]; simp⟩
      | none =>
        obtain ⟨u, b, h1, h2⟩ := ih (begin cliTable (.long (String.ofList n))).2
        exact ⟨flush p ++ (begin cliTable (.long (String.ofList n))).1 ++ u, b, by simp [h1], by simp only [h2]; simp⟩
    | short cs =>
      obtain ⟨u, b, h1, h2⟩ := ih (shortCluster cliTable cs).2
      exact ⟨flush p ++ (shortCluster cliTable cs).1 ++ u, b, by simp [h1], by simp only [h2]; simp⟩
    | plain v =>
      cases p with
      | none => exact ⟨[], false, by simp, by simp⟩
      | some p =>
        obtain ⟨u, b, h1, h2⟩ := ih (addValue p v).2
        exact ⟨(addValue p v).1 ++ u, b, by simp [h1], by simp only [h2]; simp⟩

/-- What reading the options ends with, if something that is always an error comes after them. -/
def endFrom (seen : List String) (uses : List Use) : Execution :=
  match resolveUses cliTable seen uses with
  | .error .help => .help
  | .error .version => .version
  | _ => .rejected

theorem endFrom_map (r r' : Except CliResult (List (ArgDef × List ArgVal))) (x x' : ArgDef × List ArgVal)
    (h : (match r with | .error .help => Execution.help | .error .version => .version | _ => .rejected) =
      (match r' with | .error .help => Execution.help | .error .version => .version | _ => .rejected)) :
    (match r.map (x :: ·) with | .error .help => Execution.help | .error .version => .version | _ => .rejected) =
      (match r'.map (x' :: ·) with | .error .help => Execution.help | .error .version => .version | _ => .rejected) := by
  rcases r with (_ | _ | _ | _) | _ <;> rcases r' with (_ | _ | _ | _) | _ <;> simp_all [Except.map]

theorem endFrom_append (x y : List Use) (h : ∀ seen, endFrom seen x = endFrom seen y) (u : List Use) :
    ∀ seen, endFrom seen (u ++ x) = endFrom seen (u ++ y) := by
  induction u with
  | nil => exact h
  | cons u us ih =>
    intro seen
    rw [endFrom, endFrom, List.cons_append, List.cons_append, resolveUses, resolveUses]
    cases resolve cliTable u.name with
    | none => rfl
    | some a =>
      simp only
      cases useValues a u.values with
      | none => rfl
      | some vs =>
        simp only
        cases a.action with
        | help => rfl
        | version => rfl
        | set =>
          by_cases hs : seen.contains a.id = true
          · simp only [if_pos hs]
          · simp only [if_neg hs]
            exact endFrom_map _ _ _ _ (ih _)
        | append => exact endFrom_map _ _ _ _ (ih _)

theorem flags_only : ∀ a ∈ cliTable, takesValue a = false →
    ∀ c ∈ a.short.toList ++ a.shortAliases, c = 'h' ∨ c = '?' ∨ c = 'V' := by decide +kernel

theorem endFrom_flag (us : List Use) (seen : List String) :
    endFrom seen (⟨.short 'h', []⟩ :: us) = .help ∧ endFrom seen (⟨.short '?', []⟩ :: us) = .help ∧
    endFrom seen (⟨.short 'V', []⟩ :: us) = .version := by
  have h : ∀ c ∈ ['h', '?', 'V'], (resolve cliTable (.short c)).map (fun a => (a.action, useValues a [])) =
      some (if c = 'V' then .version else .help, some []) := by decide +kernel
  have h' : ∀ c ∈ ['h', '?', 'V'], endFrom seen (⟨.short c, []⟩ :: us) = if c = 'V' then .version else .help := by
    intro c hc
    have hr := h c hc
    rw [endFrom, resolveUses]
    cases e : resolve cliTable (.short c) with
    | none => rw [e] at hr; cases hr
    | some a =>
      rw [e] at hr
      simp only [Option.map_some, Option.some.injEq, Prod.mk.injEq] at hr
      by_cases hV : c = 'V'
      · simp only [hr.2, hr.1, if_pos hV]
      · simp only [hr.2, hr.1, if_neg hV]
  exact ⟨h' 'h' (by decide), h' '?' (by decide), h' 'V' (by decide)⟩

theorem endFrom_unknown (c : Char) (h : resolve cliTable (.short c) = none) (seen : List String) :
    endFrom seen [⟨.short c, []⟩] = .rejected := by
  rw [endFrom, resolveUses]
  simp only [h]

theorem endFrom_broken (lead : Text) (seen : List String) : endFrom seen (brokenUses cliTable lead) =
    endFrom seen ((leadingFlag lead).map (fun c => ⟨.short c, []⟩)) := by
  match lead with
  | [] => rfl
  | [a] =>
    by_cases ha : a = '-'
    · subst ha; rfl
    · rw [brokenUses]
      · simp [leadingFlag]
      · intro r e; exact ha (by injection e)
      · intro r e; exact ha (by injection e)
  | a :: c :: r =>
    by_cases ha : a = '-'
    · subst ha
      by_cases hc : c = '-'
      · subst hc; rfl
      · have hb : brokenUses cliTable ('-' :: c :: r) = clusterFlags cliTable (c :: r) := by
          rw [brokenUses]
          intro r e; exact hc (by injection e)
        rw [hb, leadingFlag, clusterFlags]
        obtain ⟨f1, f2, f3⟩ := endFrom_flag (clusterFlags cliTable r) seen
        obtain ⟨g1, g2, g3⟩ := endFrom_flag [] seen
        by_cases hf : c = 'h' ∨ c = '?' ∨ c = 'V'
        · rw [if_pos hf]
          have hd : ∀ c ∈ ['h', '?', 'V'], (resolve cliTable (.short c)).map takesValue = some false := by decide +kernel
          have hr := hd c (by simpa using hf)
          cases e : resolve cliTable (.short c) with
          | none => rw [e] at hr; cases hr
          | some a =>
            rw [e] at hr
            simp only [Option.map_some, Option.some.injEq] at hr
            simp only [hr, Bool.false_eq_true, if_false, List.map_cons, List.map_nil]
            rcases hf with rfl | rfl | rfl
            · rw [f1, g1]
            · rw [f2, g2]
            · rw [f3, g3]
        · rw [if_neg hf]
          cases e : resolve cliTable (.short c) with
          | none => exact endFrom_unknown c e seen
          | some a =>
            have hm := List.mem_of_find?_eq_some e
            have hn := List.find?_some e
            have ht : takesValue a = true := by
              cases ht : takesValue a with
              | true => rfl
              | false =>
                refine absurd (flags_only a hm ht c ?_) hf
                simp only [ArgDef.hasName, Bool.or_eq_true, beq_iff_eq, List.contains_iff_mem] at hn
                rcases hn with hn | hn
                · simp [hn]
                · simp [hn]
            simp only [ht, if_true, List.map_nil]
    · rw [brokenUses, leadingFlag]
      · rfl
      · intro c' r' e; exact ha (by injection e)
      · intro r e; exact ha (by injection e)
      · intro r e; exact ha (by injection e)

theorem executeOs_broken (m : Machine) (file : FigData) (env : Dict) (profile : Option String) (isTty : Bool)
    (lead : Text) (rest : List OsArg) (ts : List Text) :
    executeOs m file env profile isTty (ts.map .text ++ .broken lead :: rest) =
      executeArgv m file env profile isTty (ts ++ ((leadingFlag lead).map (fun c => ['-', c]) ++ [['-', '-'], ['x']])) := by
  obtain ⟨u, b, h1, h2⟩ := lexOs_broken lead rest ts none
  rw [executeOs, executeArgv, h1, h2]
  cases b with
  | false => rfl
  | true => exact endFrom_append _ _ (endFrom_broken lead) u []

theorem executeOs_text (m : Machine) (file : FigData) (env : Dict) (profile : Option String) (isTty : Bool)
    (args : List Text) :
    executeOs m file env profile isTty (args.map .text) = executeArgv m file env profile isTty args := by
  rw [executeOs, executeArgv, lexOs_text]
  rfl

theorem executeOs_never (m : Machine) (file : FigData) (env : Dict) (profile : Option String) (isTty : Bool)
    (lead : Text) (rest : List OsArg) (ts : List Text) :
    executeOs m file env profile isTty (ts.map .text ++ .broken lead :: rest) = .rejected ∨
    executeOs m file env profile isTty (ts.map .text ++ .broken lead :: rest) = .help ∨
    executeOs m file env profile isTty (ts.map .text ++ .broken lead :: rest) = .version := by
  obtain ⟨u, b, h1, -⟩ := lexOs_broken lead rest ts none
  rw [executeOs, h1]
  simp only
  split
  · exact Or.inr (Or.inl rfl)
  · exact Or.inr (Or.inr rfl)
  · exact Or.inl rfl

end Pemv
