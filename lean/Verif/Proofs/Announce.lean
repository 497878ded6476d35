import Verif.Proofs.Outcome
import Verif.Spec.Whole

/-!
# Lemma for C73: telling the format
-/

namespace Pemv

open Spec

theorem announces_outcome {m : Machine} {sort : Bool} (f : TlvFormat) (b : RawEmvBlock) :
    Announces f.text (tlvOutcome m sort (.ok (none, b))) (tlvOutcome m sort (.ok (some f, b))) := by
  have hh := shows_header f
  simp only [tlvOutcome]
  rcases c34_returns b with ⟨q, hq⟩ | ⟨e, he⟩
  · simp only [hq]
    refine ⟨rfl, rfl, rfl, ?_, fun h => absurd rfl h, fun _ => ⟨autoHeader f, hh, ?_⟩⟩
    · show ((autoHeader f).seq _).panicked = (Disp.nil.seq _).panicked
      rw [Disp.seq, if_neg (by rw [hh.returns]; decide)]
      rfl
    · show (autoHeader f).seq _ = (autoHeader f).seq (Disp.nil.seq _)
      congr 1
  · simp only [he]
    exact ⟨rfl, rfl, rfl, rfl, fun _ => ⟨rfl, rfl⟩, fun h => by cases h⟩

end Pemv
