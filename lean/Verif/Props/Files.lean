import Verif.Model.Small

/-! # Property C208: where readers read from, and what they close -/

noncomputable section
open scoped Classical
namespace Pvlib.Props.Files
open Pvlib.Small

/-- Every file opened in the course of the events is closed again later, and nothing else is closed. -/
def Balanced : List Event → Prop
  | [] => True
  | [.fetched _] => True
  | [.opened p, .closed q] => p = q
  | [.openedGzip p, .closed q] => p = q
  | _ => False

private theorem with_spec {α : Type} (contents : Origin → Text) (parse : Text → Except PyErr α) (o : Origin) :
    (withOrigin contents parse o).1 = parse (contents o) ∧ Balanced (withOrigin contents parse o).2 := by
  cases o <;> exact ⟨rfl, by simp [withOrigin, Balanced]⟩

/-- **C208a.** Whatever the parser does - return or raise - a reader closes each file it opened, exactly once, and closes no other; an open file
passed by the user stays open (unless its printed form makes `read_bsrn` take it for a compressed file, or `read_epw` for a URL). -/
theorem files_closed {α : Type} (contents : Origin → Text) (parse : Text → Except PyErr α) (f : Src) :
    Balanced (readEpw contents parse f).2 ∧ Balanced (readBsrn contents parse f).2 ∧ Balanced (readPanond contents parse f).2 ∧
    (∀ t, f = .object t → ¬ "http".toList <+: t → ¬ ".gz".toList <:+ t →
      (readEpw contents parse f).2 = [] ∧ (readBsrn contents parse f).2 = [] ∧ (readPanond contents parse f).2 = []) := by
  refine ⟨?_, ?_, ?_, ?_⟩
  · unfold readEpw; split <;> exact (with_spec _ _ _).2
  · unfold readBsrn; split <;> exact (with_spec _ _ _).2
  · cases f
    · exact (with_spec _ _ _).2
    · simp [readPanond, Balanced]
  · rintro t rfl h1 h2
    refine ⟨?_, ?_, rfl⟩
    · unfold readEpw; rw [if_neg (by simpa [Src.str] using h1)]; rfl
    · unfold readBsrn; rw [if_neg (by simpa [Src.str] using h2)]; rfl

/-- **C208b.** The result is what the parser makes of the text: of the file for a name, of the download for a name that begins with `http`, of the
decompressed file for a name that ends with `.gz`, of the object for an open file. -/
theorem files_parsed {α : Type} (contents : Origin → Text) (parse : Text → Except PyErr α) (p t : Text) :
    ("http".toList <+: p → readEpw contents parse (.path p) = (parse (contents (.url p)), [.fetched p])) ∧
    (¬ "http".toList <+: p → readEpw contents parse (.path p) = (parse (contents (.file p)), [.opened p, .closed p])) ∧
    (¬ "http".toList <+: t → readEpw contents parse (.object t) = (parse (contents .object), [])) ∧
    (".gz".toList <:+ p → readBsrn contents parse (.path p) = (parse (contents (.gzip p)), [.openedGzip p, .closed p])) ∧
    (¬ ".gz".toList <:+ p → readBsrn contents parse (.path p) = (parse (contents (.file p)), [.opened p, .closed p])) ∧
    (¬ ".gz".toList <:+ t → readBsrn contents parse (.object t) = (parse (contents .object), [])) ∧
    readPanond contents parse (.path p) = (parse (contents (.file p)), [.opened p, .closed p]) ∧
    readPanond contents parse (.object t) = (.error .typeError, []) := by
  refine ⟨?_, ?_, ?_, ?_, ?_, ?_, rfl, rfl⟩ <;> intro h
  · unfold readEpw; rw [if_pos (by simpa [Src.str] using h)]; rfl
  · unfold readEpw; rw [if_neg (by simpa [Src.str] using h)]; rfl
  · unfold readEpw; rw [if_neg (by simpa [Src.str] using h)]; rfl
  · unfold readBsrn; rw [if_pos (by simpa [Src.str] using h)]; rfl
  · unfold readBsrn; rw [if_neg (by simpa [Src.str] using h)]; rfl
  · unfold readBsrn; rw [if_neg (by simpa [Src.str] using h)]; rfl

/-- **C208c.** Unlike `retrieve_sam`, `read_epw` takes a URL in capital letters for a file name, and `read_bsrn` reads `X.GZ` as plain text. -/
theorem case_matters {α : Type} (contents : Origin → Text) (parse : Text → Except PyErr α) :
    (readEpw contents parse (.path "HTTPS://a.org/b.epw".toList)).1 = parse (contents (.file "HTTPS://a.org/b.epw".toList)) ∧
    PvFunctions.retrieveSam none (some "HTTPS://a.org/b.csv") = .ok (.url "HTTPS://a.org/b.csv") ∧
    (readBsrn contents parse (.path "x.GZ".toList)).1 = parse (contents (.file "x.GZ".toList)) := by
  refine ⟨?_, by decide +kernel, ?_⟩
  · rw [(files_parsed contents parse _ []).2.1 (by decide)]
  · rw [(files_parsed contents parse _ []).2.2.2.2.1 (by decide)]

example (contents : Origin → Text) : readBsrn contents (fun _ => (.error .valueError : Except PyErr Unit)) (.path "tam0117.dat.gz".toList) =
    (.error .valueError, [.openedGzip "tam0117.dat.gz".toList, .closed "tam0117.dat.gz".toList]) :=
  (files_parsed contents _ "tam0117.dat.gz".toList []).2.2.2.1 (by decide)

end Pvlib.Props.Files
end
