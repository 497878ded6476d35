import Verif.Spec.Whole

/-!
# Data objects inside templates, and where they are shown (C96)
-/

namespace Pemv.Spec

/-- Two sequences of data objects differ only in one object, which is `e` in the one and `e'` in the other. It may sit
inside templates: then these are those on the way to it, outermost first, each as it is in the one and in the other. -/
inductive Differ (masks : List Char) (e e' : Elem) : List (Elem × Elem) → List Elem → List Elem → Prop
  | here (pre post : List Elem) : Differ masks e e' [] (pre ++ e :: post) (pre ++ e' :: post)
  | inside (pre post : List Elem) (t t' : Elem) (l l' : List Elem) (path : List (Elem × Elem)) :
      t.tag = t'.tag → typeOf t.tag = .constructed →
      t.value = concat l → t'.value = concat l' → IsBlock l → IsBlock l' →
      ¬ IsMasked (latin1 t.value) masks → ¬ IsMasked (latin1 t'.value) masks →
      Differ masks e e' path l l' → Differ masks e e' ((t, t') :: path) (pre ++ t :: post) (pre ++ t' :: post)

/-- What is shown of a template before its contents. -/
def templateLines (t : Elem) : List Line :=
  [tagLine ⟨t.tag, classOf t.tag, .constructed, .normal t.value⟩] ++ rawLines (.normal t.value) ++
    [title "Constructed Data Object's Child Tags:"]

/-- Two documents differ only in that the one has the lines `own` where the other has the lines `own'`, which are
inside the templates given, and in what is shown of those templates themselves. -/
inductive ShownBut (own own' : List Line) : List (Elem × Elem) → List Line → List Line → Prop
  | here (before after : List Line) : ShownBut own own' [] (before ++ own ++ after) (before ++ own' ++ after)
  | inside (before after : List Line) (t t' : Elem) (ls ls' : List Line) (path : List (Elem × Elem)) :
      ShownBut own own' path ls ls' →
      ShownBut own own' ((t, t') :: path) (before ++ (templateLines t ++ deeper ls) ++ after)
        (before ++ (templateLines t' ++ deeper ls') ++ after)

end Pemv.Spec
