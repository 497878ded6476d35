import Verif.Model.Terminal
import Verif.Spec.Terminal
import Verif.Proofs.Outcome

/-!
# Lemmas for C82
-/

namespace Pemv

open Spec

/-- No escape character. -/
def Quiet (t : Text) : Prop := ∀ c ∈ t, c.toNat ≠ 27

theorem quiet_safe {t : Text} (h : SafeText t) : Quiet t := by
  intro c hc e
  rcases h c hc with rfl | rfl | ⟨h1, -⟩ | h1
  · exact absurd e (by decide)
  · exact absurd e (by decide)
  · omega
  · exact (by decide +kernel : ∀ c ∈ boxCharacters, c.toNat ≠ 27) c h1 e

theorem screen_text (s : ColorSpec) (t rest : Text) (h : Quiet t) :
    screen s .ground (t ++ rest) =
      (t.map (fun c => (c, s)) ++ (screen s .ground rest).1, (screen s .ground rest).2) := by
  induction t with
  | nil => rfl
  | cons c t ih =>
    have hc : ¬ c.toNat = 27 := h c (List.mem_cons_self ..)
    have ih := ih (fun d hd => h d (List.mem_cons_of_mem _ hd))
    rw [List.cons_append, screen, if_neg hc, ih]
    rfl

theorem screen_sgr0 (s : ColorSpec) (rest : Text) :
    screen s .ground (sgr "0" ++ rest) = screen plainStyle .ground rest := by
  rfl

theorem screen_sgr1 (s : ColorSpec) (rest : Text) :
    screen s .ground (sgr "1" ++ rest) = screen { s with bold := true } .ground rest := by
  rfl

theorem screen_colour (s : ColorSpec) (k : Colour) (rest : Text) :
    screen s .ground (sgr k.code ++ rest) = screen { s with fg := some k } .ground rest := by
  cases k <;> rfl

theorem screen_setColor (s c : ColorSpec) (rest : Text) :
    screen s .ground (ansiSetColor c ++ rest) = screen c .ground rest := by
  obtain ⟨b, f⟩ := c
  rw [ansiSetColor, List.append_assoc, List.append_assoc, screen_sgr0]
  cases b <;> cases f with
  | none => rfl
  | some k =>
    first
    | (rw [if_pos rfl, screen_sgr1]; exact screen_colour _ k rest)
    | (show screen plainStyle .ground ([] ++ (sgr k.code ++ rest)) = _; rw [List.nil_append]; exact screen_colour _ k rest)

theorem evText_quiet_cons {t : Text} {es : List Ev} (h : Quiet (evText (.text t :: es))) : Quiet t ∧ Quiet (evText es) :=
  ⟨fun c hc => h c (List.mem_append_left _ hc), fun c hc => h c (List.mem_append_right _ hc)⟩

theorem screen_written (evs : List Ev) (s : ColorSpec) (h : Quiet (evText evs)) :
    screen s .ground (written true evs) = (paint s evs, lastStyle s evs) := by
  induction evs generalizing s with
  | nil => rfl
  | cons e es ih =>
    cases e with
    | text t =>
      obtain ⟨h1, h2⟩ := evText_quiet_cons h
      show screen s .ground (t ++ written true es) = _
      rw [screen_text s t _ h1, ih s h2]
      rfl
    | setColor c =>
      show screen s .ground (ansiSetColor c ++ written true es) = _
      rw [screen_setColor, ih c h]
      rfl
    | reset =>
      show screen s .ground (sgr "0" ++ written true es) = _
      rw [screen_sgr0, ih plainStyle h]
      rfl

theorem written_plain (evs : List Ev) : written false evs = evText evs := by
  induction evs with
  | nil => rfl
  | cons e es ih =>
    cases e with
    | text t => show t ++ written false es = t ++ evText es; rw [ih]
    | setColor c => exact ih
    | reset => exact ih

theorem run_quiet (m : Machine) (ops : CliOps) (masks : List Char) (sort : Bool) :
    Quiet (evText (run m ops masks sort).disp.evs) := quiet_safe (run_safe m ops masks sort)

end Pemv
