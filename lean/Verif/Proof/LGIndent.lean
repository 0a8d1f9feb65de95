import Verif.Spec.Indent
import Verif.Proof.LGBlank
import Verif.Props.Kinds

/-!
# Moving a text to the right
-/

namespace Verif
namespace LG

/-- `cs` is not empty, ends with a line end, and has no CR or NUL. -/
def Lines (cs : List Char) : Prop := (∃ x, cs = x ++ ['\n']) ∧ '\r' ∉ cs ∧ '\x00' ∉ cs

theorem Lines.ne {cs} (h : Lines cs) : cs ≠ [] := by obtain ⟨⟨x, rfl⟩, _⟩ := h; simp

theorem Lines.suffix {w cs} (h : Lines (w ++ cs)) (hc : cs ≠ []) : Lines cs := by
  obtain ⟨⟨x, e⟩, h1, h2⟩ := h
  refine ⟨⟨cs.dropLast, ?_⟩, fun h => h1 (by simp [h]), fun h => h2 (by simp [h])⟩
  have := congrArg List.getLast? e
  rw [List.getLast?_append, List.getLast?_concat, List.getLast?_eq_some_getLast hc] at this
  have g : cs.getLast hc = '\n' := by simpa using this
  rw [← g]
  exact (List.dropLast_concat_getLast hc).symm

section
variable {k : Nat} {b : List Char}

/-- The text moved to the right, in front of `b`. -/
def out (k : Nat) (b cs : List Char) : List Char := indentRest k cs ++ b

theorem out_cons {c cs} (h : c ≠ '\n') : out k b (c :: cs) = c :: out k b cs := by
  simp [out, indentRest, h]

theorem out_line {cs} (h : cs ≠ []) : out k b ('\n' :: cs) = '\n' :: (List.replicate k ' ' ++ out k b cs) := by
  simp [out, indentRest, h]

theorem out_last : out k b ['\n'] = '\n' :: b := by simp [out, indentRest]

theorem out_append {w cs} (h : '\n' ∉ w) : out k b (w ++ cs) = w ++ out k b cs := by
  induction w with
  | nil => rfl
  | cons c w ih =>
    simp only [List.mem_cons, not_or] at h
    rw [List.cons_append, out_cons (Ne.symm h.1), ih h.2, List.cons_append]

theorem out_head {cs} (h : cs ≠ []) : (out k b cs).head? = cs.head? := by
  cases cs with
  | nil => exact absurd rfl h
  | cons c cs =>
    by_cases hc : c = '\n' ∧ cs ≠ []
    · obtain ⟨rfl, hc⟩ := hc
      rw [out_line hc]; rfl
    · simp only [out, indentRest, hc, if_false]; rfl

theorem skips_replicate {l r} : Skips l (List.replicate k ' ' ++ r) r :=
  skips_indent (by intro c hc; exact .inl (List.eq_of_mem_replicate hc))

theorem Skips.shift {l cs r} (h : Skips l cs r) (hr : r ≠ []) (hl : '\r' ∉ cs) (h0 : '\x00' ∉ cs) : Skips l (out k b cs) (out k b r) := by
  induction h with
  | done => exact .done
  | @blank c cs r hc _ ih =>
    rw [out_cons (by rcases hc with rfl | rfl <;> decide)]
    simp only [List.mem_cons, not_or] at hl h0
    exact .blank hc (ih hr hl.2 h0.2)
  | @comment cs txt rest r h1 h2 h3 h4 ih =>
    obtain ⟨rfl, g1, g2⟩ := h1
    simp only [List.mem_append, not_or] at hl h0
    rw [out_append (fun h => (g1 _ h).2.1 rfl)]
    have hne : rest ≠ [] := by
      rintro rfl
      obtain ⟨w, e⟩ := h4.suffix
      exact hr (List.append_eq_nil_iff.1 e.symm).2
    exact .comment ⟨rfl, g1, fun c hc => g2 c (by rw [out_head hne] at hc; exact hc)⟩ h2 h3 (ih hr hl.2 h0.2)
  | @continuation eol cs r he h4 ih =>
    have hne : cs ≠ [] := by
      rintro rfl
      obtain ⟨w, e⟩ := h4.suffix
      exact hr (List.append_eq_nil_iff.1 e.symm).2
    rcases he with rfl | rfl | ⟨rfl, -⟩
    · simp only [List.mem_cons, List.mem_append, not_or] at hl h0
      have g := Skips.continuation (lines := ‹Bool›) (eol := cs! "\n") (cs := List.replicate k ' ' ++ out k b cs) (.inl rfl)
        (skips_replicate.append (ih hr hl.2.2 h0.2.2))
      have e : out k b ('\\' :: (cs! "\n" ++ cs)) = '\\' :: (cs! "\n" ++ (List.replicate k ' ' ++ out k b cs)) := by
        rw [out_cons (by decide)]
        exact congrArg _ (out_line hne)
      rw [e]
      exact g
    · exact absurd (by simp) hl
    · exact absurd (by simp) hl
  | @line cs cs' r hb he h4 ih =>
    have hne : cs' ≠ [] := by
      rintro rfl
      obtain ⟨w, e⟩ := h4.suffix
      exact hr (List.append_eq_nil_iff.1 e.symm).2
    cases he with
    | lf =>
      simp only [List.mem_cons, not_or] at hl h0
      rw [out_line hne]
      exact .line hb .lf (skips_replicate.append (ih hr hl.2 h0.2))
    | cr => exact absurd (by simp) hl
    | crlf => exact absurd (by simp) hl

/-! ### Strings over several lines -/

/-- The text moved to the right, before more text. -/
def inner (k : Nat) : List Char → List Char
  | [] => []
  | c :: cs => if c = '\n' then '\n' :: (List.replicate k ' ' ++ inner k cs) else c :: inner k cs

theorem out_inner {w cs} (h : cs ≠ []) : out k b (w ++ cs) = inner k w ++ out k b cs := by
  induction w with
  | nil => rfl
  | cons c w ih =>
    by_cases hc : c = '\n'
    · subst hc
      rw [List.cons_append, out_line (by simp [h]), ih]
      simp [inner]
    · rw [List.cons_append, out_cons hc, ih]
      simp [inner, hc]

theorem mem_inner {w} {c : Char} (h : c ∈ inner k w) : c ∈ w ∨ c = ' ' := by
  induction w with
  | nil => cases h
  | cons d w ih =>
    unfold inner at h
    split at h
    · rename_i e
      subst e
      simp only [List.mem_cons, List.mem_append, List.mem_replicate] at h
      rcases h with rfl | ⟨-, rfl⟩ | h
      · simp
      · exact .inr rfl
      · rcases ih h with h | h
        · exact .inl (List.mem_cons_of_mem _ h)
        · exact .inr h
    · simp only [List.mem_cons] at h
      rcases h with rfl | h
      · simp
      · rcases ih h with h | h
        · exact .inl (List.mem_cons_of_mem _ h)
        · exact .inr h

/-- No three quotes start inside `w`. -/
def Unclosed (q : Char) (rest : List Char) : List Char → Prop
  | [] => True
  | c :: w => ¬ [q, q, q] <+: c :: (w ++ q :: q :: q :: rest) ∧ Unclosed q rest w

theorem unclosed_iff {q : Char} {rest w} : Unclosed q rest w ↔ ∀ j, j < w.length → ¬ [q, q, q] <+: (w ++ q :: q :: q :: rest).drop j := by
  induction w with
  | nil => simp [Unclosed]
  | cons c w ih =>
    rw [Unclosed, ih]
    constructor
    · rintro ⟨h1, h2⟩ j hj
      cases j with
      | zero => exact h1
      | succ j => exact h2 j (by simpa using hj)
    · intro h
      exact ⟨h 0 (by simp), fun j hj => h (j + 1) (by simpa using hj)⟩

theorem Unclosed.blanks {q : Char} {rest w} (hq : q ≠ ' ') (h : Unclosed q rest w) : ∀ n, Unclosed q rest (List.replicate n ' ' ++ w)
  | 0 => h
  | n + 1 => ⟨by
      intro hp
      have := (List.cons_prefix_cons.1 hp).1
      exact hq this, h.blanks hq n⟩

theorem Unclosed.inner {q : Char} {rest rest' w} (hq : q = '\'' ∨ q = '"') (h : Unclosed q rest w) :
    Unclosed q rest' (inner k w) := by
  induction w with
  | nil => trivial
  | cons c w ih =>
    unfold LG.inner
    split
    · rename_i e
      refine ⟨fun hp => ?_, Unclosed.blanks (by rcases hq with rfl | rfl <;> decide) (ih h.2) k⟩
      have := (List.cons_prefix_cons.1 hp).1
      rcases hq with rfl | rfl <;> cases this
    · refine ⟨fun hp => h.1 ?_, ih h.2⟩
      rw [List.cons_prefix_cons] at hp ⊢
      refine ⟨hp.1, ?_⟩
      have hp := hp.2
      cases w with
      | nil => simp
      | cons d w =>
        have hd : d ≠ '\n' := by
          rintro rfl
          simp only [LG.inner, if_true, List.cons_append, List.cons_prefix_cons] at hp
          rcases hq with rfl | rfl <;> cases hp.1
        simp only [LG.inner, hd, if_false, List.cons_append, List.cons_prefix_cons] at hp ⊢
        refine ⟨hp.1, ?_⟩
        have hp := hp.2
        cases w with
        | nil => simp
        | cons e w =>
          have he : e ≠ '\n' := by
            rintro rfl
            simp only [LG.inner, if_true, List.cons_append, List.cons_prefix_cons] at hp
            rcases hq with rfl | rfl <;> cases hp.1
          simp only [LG.inner, he, if_false, List.cons_append, List.cons_prefix_cons] at hp ⊢
          exact ⟨hp.1, List.nil_prefix⟩

theorem inner_line {w} (h : '\n' ∉ w) : inner k w = w := by
  induction w with
  | nil => rfl
  | cons c w ih =>
    simp only [List.mem_cons, not_or] at h
    simp only [inner, ih h.2]
    rw [if_neg (fun e => h.1 e.symm)]

/-- A symbol that is on one line: not a string with a line end in it. -/
def _root_.Verif.Token.OneLine (t : Token) : Prop := ∀ s e tr txt p, t = .string s e tr txt p → '\n' ∉ txt

theorem StrLit.shift {cs txt} (h : StrLit cs txt) (hl : Lines cs) :
    ∃ txt', StrLit (out k b cs) txt' ∧ Lines (cs.drop txt.length) ∧ (out k b cs).drop txt'.length = out k b (cs.drop txt.length) ∧
      ('\n' ∉ txt → txt' = txt) := by
  cases h with
  | @empty q rest hq h =>
    have hqn : q ≠ '\n' := by rcases hq with rfl | rfl <;> decide
    have hne : rest ≠ [] := by
      rintro rfl
      obtain ⟨⟨x, e⟩, -⟩ := hl
      have := congrArg List.getLast? e
      simp at this
      exact hqn this
    refine ⟨[q, q], ?_, Lines.suffix (w := [q, q]) hl hne, ?_⟩
    · rw [out_cons hqn, out_cons hqn]
      exact .empty hq (by rw [out_head hne]; exact h)
    · rw [out_cons hqn, out_cons hqn]; exact ⟨rfl, fun _ => rfl⟩
  | @line q body rest hq h1 h2 h3 h4 h5 =>
    have hqn : q ≠ '\n' := by rcases hq with rfl | rfl <;> decide
    have hne : rest ≠ [] := by
      rintro rfl
      obtain ⟨⟨x, e⟩, -⟩ := hl
      have := congrArg List.getLast? e
      rw [← List.cons_append] at this
      simp only [List.getLast?_concat] at this
      cases this
      exact hqn rfl
    have e : out k b (q :: (body ++ q :: rest)) = q :: (body ++ q :: out k b rest) := by
      rw [out_cons hqn, out_append h4, out_cons hqn]
    refine ⟨q :: (body ++ [q]), ?_, ?_, ?_⟩
    · rw [e]; exact .line hq h1 h2 h3 h4 h5
    · have : (q :: (body ++ q :: rest)).drop (q :: (body ++ [q])).length = rest := by simp
      rw [this]
      exact Lines.suffix (w := q :: (body ++ [q])) (by simpa using hl) hne
    · rw [e]; exact ⟨by simp, fun _ => rfl⟩
  | @triple q body rest hq h1 h2 =>
    have hqn : q ≠ '\n' := by rcases hq with rfl | rfl <;> decide
    have hne : rest ≠ [] := by
      rintro rfl
      obtain ⟨⟨x, e⟩, -⟩ := hl
      have e2 : (q :: q :: q :: (body ++ [q, q])) ++ [q] = x ++ ['\n'] := by simpa using e
      have := congrArg List.getLast? e2
      simp only [List.getLast?_concat] at this
      cases this
      exact hqn rfl
    have e : out k b (q :: q :: q :: (body ++ q :: q :: q :: rest)) = q :: q :: q :: (inner k body ++ q :: q :: q :: out k b rest) := by
      rw [out_cons hqn, out_cons hqn, out_cons hqn, out_inner (by simp), out_cons hqn, out_cons hqn, out_cons hqn]
    refine ⟨q :: q :: q :: (inner k body ++ [q, q, q]), ?_, ?_, ?_⟩
    · rw [e]
      refine .triple hq (fun h => ?_) (unclosed_iff.1 ((unclosed_iff.2 h2).inner hq))
      rcases mem_inner h with h | h
      · exact h1 h
      · cases h
    · have : (q :: q :: q :: (body ++ q :: q :: q :: rest)).drop (q :: q :: q :: (body ++ [q, q, q])).length = rest := by simp
      rw [this]
      exact Lines.suffix (w := q :: q :: q :: (body ++ [q, q, q])) (by simpa using hl) hne
    · rw [e]; refine ⟨by simp, fun hw => ?_⟩
      rw [inner_line (fun h => hw (by simp [h]))]

/-! ### Symbols -/

theorem Number.reads {cs txt r} (h : Number cs txt r) : cs = txt ++ r ∨ cs = ['0'] := by
  have hf : ∀ {cs t r}, Fraction cs t r → cs = t ++ r := by intro cs t r h; cases h with | no => rfl | yes _ h => rw [h.1]; rfl
  have hp : ∀ {cs t r}, Power cs t r → cs = t ++ r := by
    intro cs t r h; cases h with | no => rfl | plain _ _ h => rw [h.1]; rfl | signed _ _ h => rw [h.1]; rfl
  have hs : ∀ {cs t r}, Suffix cs t r → cs = t ++ r := by intro cs t r h; cases h <;> rfl
  cases h with
  | decimal _ _ h1 h2 h3 h4 => left; rw [h1.1, hf h2, hp h3, hs h4]; simp
  | point _ h1 h3 h4 => left; rw [h1.1, hp h3, hs h4]; simp
  | radix _ h => left; rw [h.1]; simp
  | @zero c cs ds _ _ _ _ _ _ _ h0 _ h1 _ _ h2 h3 h4 _ =>
    cases cs with
    | nil => exact .inr rfl
    | cons d cs =>
      left
      have e1 : d = c := h0
      have e2 : cs = _ := h1
      rw [e1, e2, hf h2, hp h3, hs h4]; simp

theorem word_lines [Uni] {st cs t st' r} (h : Word st cs t st' r) (hl : Lines cs)
    (hn : ∀ txt, t = .number 0 0 none txt → '\n' ∉ txt) : ∃ t', t.Alike t' ∧ Lines r ∧ Word st (out k b cs) t' st' (out k b r) ∧ (t.OneLine → t' = t) := by
  -- a symbol on one line
  have one : ∀ {w x y}, '\n' ∉ w → cs = w ++ (x ++ '\n' :: y) → r = x ++ '\n' :: y → '\n' ∉ x → Solid t →
      ∃ t', t.Alike t' ∧ Lines r ∧ Word st (out k b cs) t' st' (out k b r) ∧ (t.OneLine → t' = t) := by
    intro w x y hw hcs hr hx hs
    subst hr hcs
    obtain ⟨w', e, -, g⟩ := h.swap (b := '\n' :: y) (b' := out k b ('\n' :: y)) (by
      intro c hc
      rw [out_head (by simp)] at hc
      cases hc
      decide) (by simp) (.inr hs)
    have := List.append_cancel_right e
    subst this
    refine ⟨t, ⟨rfl, rfl⟩, hl.suffix (by simp), ?_⟩
    rw [out_append hw, out_append hx]
    exact ⟨g, fun _ => rfl⟩
  have split : ∀ {w}, cs = w ++ r → '\n' ∉ w → ∃ x y, r = x ++ '\n' :: y ∧ '\n' ∉ x := by
    intro w e hw
    have hm : '\n' ∈ r := by
      obtain ⟨⟨z, e'⟩, -⟩ := hl
      have : '\n' ∈ cs := by rw [e']; simp
      rw [e, List.mem_append] at this
      exact this.resolve_left hw
    obtain ⟨x, y, e1, e2⟩ := List.eq_append_cons_of_mem hm
    exact ⟨x, y, e1, e2⟩
  have name : ∀ c : Char, isNameChar c = true → c ≠ '\n' := by
    rintro c h rfl
    exact nameChar_gap '\n' (by decide) h
  have fin : ∀ {w}, cs = w ++ r → '\n' ∉ w → Solid t →
      ∃ t', t.Alike t' ∧ Lines r ∧ Word st (out k b cs) t' st' (out k b r) ∧ (t.OneLine → t' = t) := by
    intro w e hw hs
    obtain ⟨x, y, e1, e2⟩ := split e hw
    exact one hw (by rw [e, e1]) e1 e2 hs
  cases h with
  | eof h =>
    exfalso
    rcases h with rfl | h
    · exact hl.ne rfl
    · exact hl.2.2 (List.mem_of_mem_head? (by rw [h]; rfl))
  | typeComment h h2 =>
    obtain ⟨rfl, h3, h4⟩ := h
    have hw : '\n' ∉ _ := fun h => (h3 _ h).2.1 rfl
    obtain ⟨x, y, rfl, e2⟩ := split rfl hw
    refine ⟨_, ⟨rfl, rfl⟩, hl.suffix (by simp), ?_⟩
    rw [out_append hw]
    exact ⟨.typeComment ⟨rfl, h3, fun c hc => h4 c (by rw [out_head (by simp)] at hc; exact hc)⟩ h2, fun _ => rfl⟩
  | @operator w k st' rest h1 h2 h3 =>
    have key : ∀ p ∈ operators, '\n' ∉ p.1 ∧ Solid (.sym p.2 0 0 none) := by
      simp only [Solid, Token.kind]; decide
    obtain ⟨g1, g2⟩ := key _ h1.1
    exact fin rfl g1 g2
  | @keyword w k rest h1 h2 =>
    have key : ∀ p ∈ pyKeywords, '\n' ∉ p.1 ∧ Solid (.sym p.2 0 0 none) := by
      simp only [Solid, Token.kind]; decide
    obtain ⟨g1, g2⟩ := key _ h1
    exact fin rfl g1 g2
  | @name c w rest h1 h2 h3 h4 h5 =>
    refine fin (w := c :: w) rfl ?_ (by simp [Solid, Token.kind])
    rintro hm
    rcases List.mem_cons.1 hm with e | hm
    · subst e
      revert h1
      simp [isNameStart, isAlphabetic]; decide
    · exact name _ (h2 _ hm) rfl
  | string h =>
    obtain ⟨txt', g1, g2, g3, g4⟩ := StrLit.shift (k := k) (b := b) h hl
    refine ⟨.string 0 0 none txt' none, ⟨rfl, rfl⟩, g2, ?_⟩
    rw [← g3]
    exact ⟨.string g1, fun h => by rw [g4 (h _ _ _ _ _ rfl)]⟩
  | @prefixed pfx cs txt h0 h =>
    have hp : ∀ p ∈ pyPrefixes, '\n' ∉ p := by decide
    have hne : cs ≠ [] := by rintro rfl; cases h
    obtain ⟨txt', g1, g2, g3, g4⟩ := StrLit.shift (k := k) (b := b) h (hl.suffix hne)
    refine ⟨.string 0 0 none txt' (some pfx), ⟨rfl, rfl⟩, g2, ?_⟩
    rw [← g3, out_append (hp _ h0)]
    exact ⟨.prefixed h0 g1, fun h => by rw [g4 (h _ _ _ _ _ rfl)]⟩
  | number h =>
    rcases h.reads with e | rfl
    · exact fin e (hn _ rfl) (by simp [Solid, Token.kind])
    · obtain ⟨⟨x, e⟩, -⟩ := hl
      have := congrArg List.getLast? e
      simp at this

/-! ### Lines -/

theorem margin_out (ht : '\t' ∉ cs ∨ k % 4 = 0) (hl : Lines cs) : ∀ {c col z}, LG.margin c cs = (col, z) →
    Lines z ∧ LG.margin (c + k) (out k b cs) = (col + k, out k b z) := by
  induction cs with
  | nil => exact absurd rfl hl.ne
  | cons d cs ih =>
    intro c col z h
    have hne : d = ' ' ∨ d = '\t' → cs ≠ [] := by
      rintro hd rfl
      obtain ⟨⟨x, e⟩, -⟩ := hl
      have := congrArg List.getLast? e
      simp at this
      subst this
      rcases hd with hd | hd <;> cases hd
    by_cases h1 : d = ' '
    · subst h1
      obtain ⟨g1, g2⟩ := ih (ht.imp_left fun h h' => h (List.mem_cons_of_mem _ h'))
        (Lines.suffix (w := [' ']) hl (hne (.inl rfl))) (c := c + 1) h
      refine ⟨g1, ?_⟩
      rw [out_cons (by decide), LG.margin, ← g2]
      congr 1; omega
    · by_cases h2 : d = '\t'
      · subst h2
        have hk : k % 4 = 0 := ht.resolve_left fun h => h (by simp)
        obtain ⟨g1, g2⟩ := ih (.inr hk) (Lines.suffix (w := ['\t']) hl (hne (.inr rfl))) (c := (c / 4 + 1) * 4) h
        refine ⟨g1, ?_⟩
        rw [out_cons (by decide), LG.margin, ← g2]
        congr 1; omega
      · have e : ∀ j (r : List Char), r.head? = some d → LG.margin j r = (j, r) := by
          intro j r hr
          cases r with
          | nil => cases hr
          | cons d' r =>
            cases hr
            rw [LG.margin]
            · intro _ h; exact h1 (List.cons.inj h).1
            · intro _ h; exact h2 (List.cons.inj h).1
        rw [e _ _ rfl] at h
        injection h with e1 e2
        subst e1 e2
        exact ⟨hl, e _ _ (by rw [out_head (by simp)]; rfl)⟩

theorem margin_replicate (r : List Char) : ∀ c, LG.margin c (List.replicate k ' ' ++ r) = LG.margin (c + k) r := by
  induction k with
  | zero => intro c; rfl
  | succ k ih => intro c; rw [List.replicate_succ, List.cons_append, LG.margin, ih]; congr 1; omega

/-- The place in the text that is moved to the right, in front of `b` and inside the blocks `L`. -/
def Place.image (k : Nat) (b : List Char) (L : List Nat) (p : Place) : Place :=
  { p with levels := p.levels.map (· + k) ++ L,
           text := if p.text = [] then b else if p.fresh then List.replicate k ' ' ++ out k b p.text else out k b p.text }

theorem Enter.shift {L : List Nat} {p bl q} (h : Enter p bl q) (hl : Lines p.text) (ht : '\t' ∉ p.text ∨ k % 4 = 0) :
    Lines q.text ∧ Enter (p.image k b L) bl (q.image k b L) := by
  have fin : ∀ {col cs}, p.fresh = true → LG.margin 0 p.text = (col, cs) →
      Lines cs ∧ LG.margin 0 (p.image k b L).text = (col + k, out k b cs) := by
    intro col cs hf hm
    obtain ⟨g1, g2⟩ := margin_out (b := b) ht hl hm
    refine ⟨g1, ?_⟩
    simp only [Place.image, hl.ne, if_false, hf, if_true]
    rw [margin_replicate, g2]
  have nc : ∀ {cs}, cs ≠ [] → (NoCode (out k b cs) ↔ NoCode cs) := by
    intro cs h; simp only [NoCode, out_head h]
  cases h with
  | mid h => exact ⟨hl, .mid h⟩
  | @noCode col cs hf hm hn =>
    obtain ⟨g1, g2⟩ := fin hf hm
    refine ⟨g1, ?_⟩
    have := Enter.noCode (p := p.image k b L) hf g2 ((nc g1.ne).2 hn)
    simpa [Place.image, g1.ne] using this
  | @brackets col cs hf hm hn hc =>
    obtain ⟨g1, g2⟩ := fin hf hm
    refine ⟨g1, ?_⟩
    have := Enter.brackets (p := p.image k b L) hf g2 (fun h => hn ((nc g1.ne).1 h)) hc
    simpa [Place.image, g1.ne] using this
  | @same col cs hf hm hn hc h1 =>
    obtain ⟨g1, g2⟩ := fin hf hm
    refine ⟨g1, ?_⟩
    have := Enter.same (p := p.image k b L) hf g2 (fun h => hn ((nc g1.ne).1 h)) hc (by simp [Place.image, h1])
    simpa [Place.image, g1.ne] using this
  | @deeper col cs top hf hm hn hc h1 h2 =>
    obtain ⟨g1, g2⟩ := fin hf hm
    refine ⟨g1, ?_⟩
    have := Enter.deeper (p := p.image k b L) (top := top + k) hf g2 (fun h => hn ((nc g1.ne).1 h)) hc (by simp [Place.image, h1]) (by omega)
    simpa [Place.image, g1.ne] using this
  | @shallower col cs out' keep top hf hm hn hc h1 h2 h3 h4 h5 =>
    obtain ⟨g1, g2⟩ := fin hf hm
    refine ⟨g1, ?_⟩
    have := Enter.shallower (p := p.image k b L) (out := out'.map (· + k)) (keep := keep.map (· + k) ++ L) (top := top + k) hf g2
      (fun h => hn ((nc g1.ne).1 h)) hc (by simp [Place.image, h1]) (by simpa using h2)
      (by intro x hx; obtain ⟨y, hy, rfl⟩ := List.mem_map.1 hx; have := h3 y hy; omega) (by simp [h4]) (by omega)
    simpa [Place.image, g1.ne] using this

theorem Next.shift [Uni] {L : List Nat} {p t q} (h : Next p t q) (hl : Lines p.text) (ht : '\t' ∉ p.text ∨ k % 4 = 0)
    (hn : ∀ txt, t = .number 0 0 none txt → '\n' ∉ txt) (hte : t.kind ≠ .EOF) :
    (q.text = [] ∨ Lines q.text) ∧ ∃ t', t.Alike t' ∧ Next (p.image k b L) t' (q.image k b L) ∧ (t.OneLine → t' = t) := by
  cases h with
  | dedent he ho =>
    obtain ⟨g1, g2⟩ := he.shift (b := b) (L := L) hl ht
    exact ⟨.inr g1, _, ⟨rfl, rfl⟩, .dedent g2 ho, fun _ => rfl⟩
  | indent he ho =>
    obtain ⟨g1, g2⟩ := he.shift (b := b) (L := L) hl ht
    exact ⟨.inr g1, _, ⟨rfl, rfl⟩, .indent g2 ho, fun _ => rfl⟩
  | @newline q cs r he ho hc hs hen =>
    obtain ⟨g1, g2⟩ := he.shift (b := b) (L := L) hl ht
    obtain ⟨w, e⟩ := hs.suffix
    have hcr : '\r' ∉ cs := fun h => g1.2.1 (by rw [e]; simp [h])
    cases hen with
    | cr => exact absurd (by simp) hcr
    | crlf => exact absurd (by simp) hcr
    | lf =>
      have g3 : Skips false (q.image k b L).text (out k b ('\n' :: r)) := by
        have := hs.shift (k := k) (b := b) (by simp) g1.2.1 g1.2.2
        simpa [Place.image, g1.ne, he.notFresh] using this
      refine ⟨?_, _, ⟨rfl, rfl⟩, ?_, fun _ => rfl⟩
      · by_cases hr : r = []
        · exact .inl hr
        · refine .inr (Lines.suffix (w := w ++ ['\n']) ?_ hr)
          rw [e] at g1
          simpa using g1
      · by_cases hr : r = []
        · subst hr
          rw [out_last] at g3
          have := Next.newline (p := p.image k b L) g2 ho hc g3 .lf
          simpa [Place.image] using this
        · rw [out_line hr] at g3
          have := Next.newline (p := p.image k b L) g2 ho hc g3 .lf
          simpa [Place.image, hr] using this
  | @word bl q cs t st r he ho hs hw =>
    obtain ⟨g1, g2⟩ := he.shift (b := b) (L := L) hl ht
    have hne : cs ≠ [] := by
      rintro rfl
      obtain ⟨rfl, -⟩ := hw.nil
      exact hte rfl
    obtain ⟨w, e⟩ := hs.suffix
    have hcs : Lines cs := by rw [e] at g1; exact g1.suffix hne
    obtain ⟨t', a1, a2, a3, a4⟩ := word_lines (k := k) (b := b) hw hcs hn
    have g3 := hs.shift (k := k) (b := b) hne g1.2.1 g1.2.2
    refine ⟨.inr a2, t', a1, ?_, a4⟩
    have := Next.word (p := p.image k b L) (q := q.image k b L) g2 ho (by simpa [Place.image, g1.ne, he.notFresh] using g3) a3
    simpa [Place.image, a2.ne, he.notFresh] using this

theorem Run.shift [Uni] {L : List Nat} : ∀ {ts p q}, Run p ts q → Lines p.text → ('\t' ∉ p.text ∨ k % 4 = 0) → q.text ≠ [] →
    (∀ txt, Token.number 0 0 none txt ∈ ts → '\n' ∉ txt) → (∀ t ∈ ts, t.kind ≠ .EOF) →
    Lines q.text ∧ ∃ ts', Alike ts ts' ∧ Run (p.image k b L) ts' (q.image k b L) ∧ ((∀ t ∈ ts, t.OneLine) → ts' = ts) := by
  intro ts
  induction ts with
  | nil => intro p q h hl _ _ _ _; cases h; exact ⟨hl, [], .nil, .nil, fun _ => rfl⟩
  | cons t ts ih =>
    intro p q h hl ht hq hn he
    cases h with
    | @cons _ _ p' _ _ h1 h2 =>
      obtain ⟨g1, t', a, g2, o1⟩ := h1.shift (k := k) (b := b) (L := L) hl ht (by rintro txt rfl; exact hn txt (by simp)) (he t (by simp))
      obtain ⟨w, e⟩ := h2.suffix
      obtain ⟨w', e'⟩ := h1.suffix
      have g3 : Lines p'.text := by
        rcases g1 with h | h
        · rw [h] at e; exact absurd (List.append_eq_nil_iff.1 e.symm).2 hq
        · exact h
      obtain ⟨g4, ts', a', g5, o2⟩ := ih h2 g3 (ht.imp_left fun h h' => h (by rw [e']; simp [h'])) hq
        (fun txt h => hn txt (List.mem_cons_of_mem _ h)) (fun t h => he t (List.mem_cons_of_mem _ h))
      exact ⟨g4, t' :: ts', .cons a a', .cons g2 g5, fun h => by
        rw [o1 (h _ (by simp)), o2 (fun t ht => h t (List.mem_cons_of_mem _ ht))]⟩

/-! ### A block -/

theorem run_follow [Uni] : ∀ {ts us : List Token} {p q r}, Run p ts q → Run q us r → Run p (ts ++ us) r := by
  intro ts
  induction ts with
  | nil => intro us p q r h h'; cases h; exact h'
  | cons t ts ih => intro us p q r h h'; cases h with | cons h1 h2 => exact .cons h1 (ih h2 h')

theorem run_blockEnds [Uni] {c lv cs} : ∀ (m : Nat) (n : Int), n ≤ 0 →
    Run ⟨false, c, lv, n - m, cs⟩ (List.replicate m (.dedent none)) ⟨false, c, lv, n, cs⟩
  | 0, n, _ => by simpa using Run.nil
  | m + 1, n, hn => by
    refine .cons (.dedent (.mid rfl) (by dsimp only; omega)) ?_
    have := run_blockEnds (c := c) (lv := lv) (cs := cs) m n hn
    rwa [show n - m = n - (m + 1 : Nat) + 1 by omega] at this

/-- The levels that are left at the column `col`. -/
theorem levels_split {col : Nat} : ∀ {L : List Nat}, L.getLast? = some 0 →
    ∃ out keep top, L = out ++ keep ∧ (∀ x ∈ out, col < x) ∧ keep.head? = some top ∧ top ≤ col := by
  intro L
  induction L with
  | nil => intro h; cases h
  | cons x L ih =>
    intro h
    by_cases hx : col < x
    · have hL : L ≠ [] := by rintro rfl; simp at h; omega
      obtain ⟨out, keep, top, rfl, h1, h2, h3⟩ := ih (by cases L with | nil => exact absurd rfl hL | cons y L => rw [← h]; rfl)
      exact ⟨x :: out, keep, top, rfl, by intro y hy; rcases List.mem_cons.1 hy with rfl | hy; exact hx; exact h1 y hy, h2, h3⟩
    · exact ⟨[], x :: L, x, rfl, by simp, rfl, by omega⟩

/-- The place after a block with the column `k`, inside the blocks `L` and in front of `b`. -/
def After (k : Nat) (b : List Char) (L : List Nat) (q : Place) : Prop :=
  ∃ col cs out keep top, LG.margin 0 b = (col, cs) ∧ ¬ NoCode cs ∧ col < k ∧ L = out ++ keep ∧ (∀ x ∈ out, col < x) ∧
    keep.head? = some top ∧ top ≤ col ∧ q = ⟨false, [], keep, - (out.length : Int), cs⟩

theorem after_of {col : Nat} {cs : List Char} (hm : LG.margin 0 b = (col, cs)) (hn : ¬ NoCode cs) (hk : col < k) {L : List Nat}
    (hL : L.getLast? = some 0) : ∃ q, After k b L q := by
  obtain ⟨out, keep, top, h1, h2, h3, h4⟩ := levels_split (col := col) hL
  exact ⟨_, col, cs, out, keep, top, hm, hn, hk, h1, h2, h3, h4, rfl⟩

/-- The symbols of a body and of the end of its block. -/
theorem body_run [Uni] {F : List Char} (hF : AtCode F) (hl : Lines F) (ht : '\t' ∉ F ∨ k % 4 = 0) {gs : List Token} {n : Token} {qN : Place}
    (h : Run (.start F) (gs ++ [n]) qN) (hn : n.kind = .Newline) (hq : qN.text = []) (hlast : qN.levels.getLast? = some 0)
    (hnum : ∀ txt, Token.number 0 0 none txt ∈ gs → '\n' ∉ txt) (he : ∀ t ∈ gs, t.kind ≠ .EOF)
    {L : List Nat} {top : Nat} (hL : L.head? = some top) (htop : top < k) {q : Place} (ha : After k b L q) :
    ∃ gs', Alike gs gs' ∧ ((∀ t ∈ gs, t.OneLine) → gs' = gs) ∧ Run ⟨true, [], L, 0, indentLines k F ++ b⟩
      (.indent none :: (gs' ++ n :: List.replicate (qN.levels.length - 1) (.dedent none)) ++ [.dedent none]) q := by
  -- the body starts after its indentation
  have h1 : Run ⟨false, [], [0], 0, F⟩ (gs ++ [n]) qN := by
    generalize gs ++ [n] = us at h
    cases h with
    | nil => simp [Place.start] at hq; exact absurd hq hl.ne
    | cons h1 h2 =>
      obtain ⟨st, r, hw, rfl⟩ := hF.first h1
      exact .cons (.word (b := false) (q := ⟨false, [], [0], 0, F⟩) (.mid rfl) rfl .done hw) h2
  obtain ⟨q', g1, g2⟩ := h1.snoc
  have hq' : q'.text ≠ [] := by
    intro e
    have := g2.newline_lt hn
    rw [e] at this
    simp at this
  obtain ⟨l1, gs', a1, g3, o1⟩ := g1.shift (k := k) (b := b) (L := L) hl ht hq' hnum he
  obtain ⟨w, ew⟩ := g1.suffix
  obtain ⟨-, n', a2, g4, -⟩ := g2.shift (k := k) (b := b) (L := L) l1 (ht.imp_left fun h h' => h (by
    show '\t' ∈ (Place.text ⟨false, [], [0], 0, F⟩); rw [ew]; simp [h'])) (by rintro txt rfl; cases hn) (by rw [hn]; decide)
  have hn' : n' = n := by
    have hk : n'.kind = .Newline := a2.1.symm.trans hn
    have key : ∀ {p t q}, Next p t q → t.kind = .Newline → t = .newline 0 0 none ' ' ' ' := by
      intro p t q h ht
      cases h with
      | dedent => cases ht
      | indent => cases ht
      | word _ _ _ hw => exact absurd ht hw.notLayout.1
      | newline => rfl
    rw [key g4 hk, key g2 hn]
  subst hn'
  refine ⟨gs', a1, o1, ?_⟩
  have hm := (margin_out (k := k) (b := b) ht hl (hF.margin 0)).2
  have hnc : ¬ NoCode (out k b F) := by
    have := hF.notNoCode
    simpa only [NoCode, out_head hl.ne] using this
  have hi : Next ⟨true, [], L, 0, indentLines k F ++ b⟩ (.indent none) (Place.image k b L ⟨false, [], [0], 0, F⟩) := by
    have hen := Enter.deeper (p := ⟨true, [], L, 0, indentLines k F ++ b⟩) (col := 0 + k) (cs := out k b F) rfl
      (by simp only [indentLines, hl.ne, if_false, List.append_assoc]; rw [margin_replicate]; exact hm) hnc rfl hL (by omega)
    have := Next.indent hen (by show (1 : Int) > 0; decide)
    simpa [Place.image, hl.ne] using this
  -- the line end
  have hqN : qN.fresh = true ∧ qN.closers = [] ∧ qN.owed = 0 := by
    cases g2 with
    | dedent => cases hn
    | indent => cases hn
    | word _ _ _ hw => exact absurd hn hw.notLayout.1
    | newline _ ho hc => exact ⟨rfl, hc, ho⟩
  obtain ⟨ff, fc, fl, fo, ft⟩ := qN
  dsimp only at hqN hq hlast ⊢
  obtain ⟨rfl, rfl, rfl⟩ := hqN
  subst hq
  obtain ⟨l0, rfl⟩ : ∃ l0, fl = l0 ++ [0] := by
    have hne : fl ≠ [] := by rintro rfl; cases hlast
    rw [List.getLast?_eq_some_getLast hne] at hlast
    refine ⟨fl.dropLast, ?_⟩
    have : fl.getLast hne = 0 := by simpa using hlast
    rw [← this]
    exact (List.dropLast_concat_getLast hne).symm
  -- the end of the block
  obtain ⟨col, cs, out', keep, top', b1, b2, b3, rfl, b5, b6, b7, rfl⟩ := ha
  have hd : Run (Place.image k b (out' ++ keep) ⟨true, [], l0 ++ [0], 0, []⟩) (List.replicate l0.length (.dedent none) ++ [.dedent none])
      ⟨false, [], keep, - (out'.length : Int), cs⟩ := by
    have hen := Enter.shallower (p := Place.image k b (out' ++ keep) ⟨true, [], l0 ++ [0], 0, []⟩) (col := col) (cs := cs)
      (out := (l0 ++ [0]).map (· + k) ++ out') (keep := keep) rfl (by simpa [Place.image] using b1) b2 rfl (by simp [Place.image])
      (by simp) (by
        intro x hx
        rcases List.mem_append.1 hx with hx | hx
        · obtain ⟨y, -, rfl⟩ := List.mem_map.1 hx; omega
        · exact b5 x hx) b6 b7
    have hds := run_blockEnds (c := []) (lv := keep) (cs := cs) l0.length (- (out'.length : Int)) (by omega)
    rw [← List.replicate_succ']
    refine .cons (.dedent hen (by simp; omega)) ?_
    rw [show - (out'.length : Int) - l0.length = - (((l0 ++ [0]).map (· + k) ++ out').length : Int) + 1 by simp; omega] at hds
    exact hds
  have hl' : (l0 ++ [0]).length - 1 = l0.length := by simp
  rw [hl']
  have := run_follow (run_follow g3 (.cons g4 .nil)) hd
  have := Run.cons hi this
  simpa using this

end
end LG
end Verif
