import Verif.Proof.LGReplace
import Verif.Proof.LGConcat

/-!
# The symbols of a text inside brackets

A text that ends with a line end has the same symbols inside brackets, except for the line ends.
-/

set_option linter.unusedSimpArgs false

namespace Verif
attribute [-simp] List.drop_one List.tail_drop
namespace LG

variable {b : List Char}

theorem Skips.extend {l cs r} (h : Skips l cs r) (ht : Tail cs) : Skips l (cs ++ b) (r ++ b) := by
  by_cases hr : r = []
  · subst hr; exact h.join ht
  · obtain ⟨w, e, h'⟩ := Skips.swap (b := []) (b' := b) (x := r) (by simpa using h) hr
    rw [e]; simpa using h'

theorem Skips.lines {l cs r} (h : Skips l cs r) : Skips true cs r := by
  induction h with
  | done => exact .done
  | blank h _ ih => exact .blank h ih
  | comment h1 h2 h3 _ ih => exact .comment h1 h2 h3 ih
  | continuation h _ ih => exact .continuation h ih
  | line _ h _ ih => exact .line rfl h ih

theorem Skips.then {l cs r s} (h : Skips l cs r) (h' : Skips l r s) : Skips l cs s := by
  induction h with
  | done => exact h'
  | blank h _ ih => exact .blank h (ih h')
  | comment h1 h2 h3 _ ih => exact .comment h1 h2 h3 (ih h')
  | continuation h _ ih => exact .continuation h (ih h')
  | line h1 h _ ih => exact .line h1 h (ih h')

theorem margin_skips {l} {cs : List Char} : ∀ {k col r}, LG.margin k cs = (col, r) → Skips l cs r := by
  induction cs with
  | nil => intro k col r h; simp [LG.margin] at h; rw [← h.2]; exact .done
  | cons c cs ih =>
    intro k col r h
    unfold LG.margin at h
    split at h
    · rename_i e; cases e; exact .blank (.inl rfl) (ih h)
    · rename_i e; cases e; exact .blank (.inr rfl) (ih h)
    · cases h; exact .done

theorem Enter.skips {p bl q} (h : Enter p bl q) (l : Bool) : Skips l p.text q.text := by
  cases h with
  | mid => exact .done
  | noCode _ h | brackets _ h | same _ h | deeper _ h | shallower _ h => exact margin_skips h

theorem brStep_below {st st' : List Char} {k : Kind} (h : brStep st k = some st') (ext : List Char) :
    brStep (st ++ ext) k = some (st' ++ ext) := by
  have close : ∀ c : Char, (if st.head? = some c then some st.tail else none) = some st' →
      (if (st ++ ext).head? = some c then some (st ++ ext).tail else none) = some (st' ++ ext) := by
    intro c h
    cases st with
    | nil => simp at h
    | cons a st => simp at h ⊢; simp [h]
  unfold brStep at h ⊢
  split at h <;> first | exact close _ h | (cases h; rfl)

theorem Word.below [Uni] {st cs t st' r} (h : Word st cs t st' r) (ext : List Char) : Word (st ++ ext) cs t (st' ++ ext) r := by
  cases h with
  | eof h => exact .eof h
  | typeComment h h2 => exact .typeComment h h2
  | operator h1 h2 h3 => exact .operator h1 h2 (brStep_below h3 ext)
  | keyword h1 h2 => exact .keyword h1 h2
  | name h1 h2 h3 h4 h5 => exact .name h1 h2 h3 h4 h5
  | string h => exact .string h
  | prefixed h1 h => exact .prefixed h1 h
  | number h => exact .number h

/-- A symbol of a text that ends with a line end, if the text goes on. -/
theorem Word.extend [Uni] (hs : ∀ c, b.head? = some c → c ∈ sepChars) (hop : ∀ w k, (w, k) ∈ operators → ∀ c ∈ w.tail, b.head? ≠ some c)
    {st cs t st' r} (h : Word st cs t st' r) (ht : Tail cs) (hk : t.kind ≠ .EOF) : Word st (cs ++ b) t st' (r ++ b) := by
  have h0 : r ++ [] ≠ [] ∨ cs ≠ ['0'] := by
    right; rintro rfl
    rcases ht with h | ⟨x, h, -⟩
    · cases h
    · have := congrArg List.getLast? h; simp at this
  have hx : r ≠ [] ∨ Solid t := by
    by_cases hr : r = []
    · right
      subst hr
      have h1 := h.notLayout
      generalize hz : ([] : List Char) = z at h
      cases h with
      | eof => exact absurd rfl hk
      | typeComment h h2 =>
        exfalso
        obtain ⟨rfl, h3, -⟩ := h
        subst hz
        refine tail_ne_of_append ht (fun h => (h3 _ h).2.1 rfl) ?_ rfl
        rintro rfl; simp at h2
      | @operator w k _ _ h => exact solid_operators _ h.1
      | keyword h => 
        have := solid_keywords _ h
        exact this
      | name | string | prefixed | number => simp [Solid, Token.kind]
    · exact .inl hr
  obtain ⟨w, e, -, h'⟩ := Word.edit (b := []) (b' := b) (x := r) hop (fun _ => hs) (by simpa using h) h0 hx
  rw [e]; simpa using h'

/-- The next symbol of a text inside brackets. -/
theorem Next.inside [Uni] (hs : ∀ c, b.head? = some c → c ∈ sepChars) (hop : ∀ w k, (w, k) ∈ operators → ∀ c ∈ w.tail, b.head? ≠ some c)
    {p t q} (h : Next p t q) (ht : Tail p.text) (hk : t.kind ∉ [Kind.Newline, .Indent, .Dedent, .EOF]) {ext lv} (he : ext ≠ []) :
    Next ⟨false, p.closers ++ ext, lv, 0, p.text ++ b⟩ t ⟨false, q.closers ++ ext, lv, 0, q.text ++ b⟩ := by
  simp only [List.mem_cons, List.not_mem_nil, or_false, not_or] at hk
  cases h with
  | dedent => exact absurd rfl hk.2.2.1
  | indent => exact absurd rfl hk.2.1
  | newline => exact absurd rfl hk.1
  | @word bl q0 cs _ st r hen ho hsk hw =>
    have h1 := (hen.skips true).then hsk.lines
    obtain ⟨w, e⟩ := h1.suffix
    have htc : Tail cs := Tail.suffix (e ▸ ht)
    have h2 := (hw.extend hs hop htc hk.2.2.2).below ext
    rw [hen.closers] at h2
    have := Next.word (p := ⟨false, p.closers ++ ext, lv, 0, p.text ++ b⟩) (.mid rfl) rfl
      (cs := cs ++ b) (by
        have e0 : (p.closers ++ ext).isEmpty = false := by cases ext <;> simp_all
        show Skips (false || !(p.closers ++ ext).isEmpty) _ _
        rw [e0]; exact h1.extend ht) h2
    exact this

/-- The symbols of a text inside brackets. -/
theorem Run.inside [Uni] (hs : ∀ c, b.head? = some c → c ∈ sepChars) (hop : ∀ w k, (w, k) ∈ operators → ∀ c ∈ w.tail, b.head? ≠ some c)
    {ext lv} (he : ext ≠ []) {p ts q} (h : Run p ts q) : Tail p.text → (∀ t ∈ ts, t.kind ∉ [Kind.Newline, .Indent, .Dedent, .EOF]) →
    Tail q.text ∧ Run ⟨false, p.closers ++ ext, lv, 0, p.text ++ b⟩ ts ⟨false, q.closers ++ ext, lv, 0, q.text ++ b⟩ := by
  induction h with
  | nil => intro h _; exact ⟨h, .nil⟩
  | @cons p t q ts r h _ ih =>
    intro ht hk
    obtain ⟨w, e⟩ := h.suffix
    obtain ⟨h1, h2⟩ := ih (Tail.suffix (e ▸ ht)) (fun t h => hk t (by simp [h]))
    exact ⟨h1, .cons (h.inside hs hop ht (hk t (by simp)) he) h2⟩

/-- Line ends up to the end of the text. -/
theorem Run.blankEnd [Uni] {x : Token} (hx : x.kind = .EOF) : ∀ {ts p q}, Run p (ts ++ [x]) q → (∀ t ∈ ts, t.kind = .Newline) →
    '\x00' ∉ p.text → Skips true p.text [] := by
  intro ts
  induction ts with
  | nil =>
    intro p q h _ h0
    cases h with
    | cons h _ =>
      cases h with
      | dedent | indent | newline => cases hx
      | @word bl q0 cs _ st r hen ho hsk hw =>
        have h1 := (hen.skips true).then hsk.lines
        obtain ⟨w, e⟩ := h1.suffix
        obtain ⟨ha, -, -⟩ := hw.atEof hx
        have : cs = [] := by
          refine ha.resolve_right fun h => h0 ?_
          rw [e]
          cases cs with
          | nil => cases h
          | cons c cs => cases h; simp
        exact this ▸ h1
  | cons t ts ih =>
    intro p q h hk h0
    cases h with
    | cons h h' =>
      have ht := hk t (by simp)
      obtain ⟨w, e⟩ := h.suffix
      have h2 := ih h' (fun t h => hk t (by simp [h])) (fun h => h0 (by rw [e]; simp [h]))
      cases h with
      | dedent | indent => cases ht
      | newline hen ho hc hsk hel => exact (hen.skips true).then (hsk.lines.then (.line rfl hel h2))
      | word _ _ _ hw => exact absurd ht hw.notLayout.1

end LG
end Verif
