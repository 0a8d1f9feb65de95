import Verif.Proof.NotNL
import Verif.Proof.ReadsStmt
import Verif.Proof.ShapeAll
import Verif.Proof.Alike
import Verif.Props.Shape
import Verif.Props.Single

/-!
# What a tree says about its tokens
-/

namespace Verif
open Prog
set_option linter.unusedSimpArgs false

/-! ### Files -/

section
variable [Uni] {src : List Char}

/-- Where the current symbol is not a Newline, the rest of a file is a sequence of statements up to the end. -/
theorem fileLoop_struct {s : Nat} : ∀ {n ns c t c'}, run n (.fileLoop s ns []) c = .ok t c' → PReach src c → NotNL src c →
    ∃ xs ts u e, t = .node .FileInput s e [.seq (ns ++ xs).reverse, .seq [], .tok u] ∧ Consumed c ts c' ∧ c'.symbol = .ok u ∧
      u.kind = .EOF ∧ Reads xs ts
  | 0, _, _, _, _, h, _, _ => by simp [run] at h
  | n + 1, ns, c, t, c', h, hp, hn => by
    refine wp_sound (Φ := fun f c t c' => run n f c = .ok t c') (fun _ _ _ _ h => h) (body (.fileLoop s ns [])) c
      (fun t c' => ∃ xs ts u e, t = .node .FileInput s e [.seq (ns ++ xs).reverse, .seq [], .tok u] ∧ Consumed c ts c' ∧
        c'.symbol = .ok u ∧ u.kind = .EOF ∧ Reads xs ts) ?_ t c' h
    simp only [body, fileLoopBody, wp_bind, wp_symAt, wp_ite, wp_mk, wp_next, wp_parse]
    intro u hu
    refine ⟨fun hk => ⟨[], [], u, c.lex.tokStart, by rw [List.append_nil]; rfl, .refl _, hu, hk, .nil⟩, fun _ => ⟨fun hk => ?_, fun _ => ?_⟩⟩
    · unfold NotNL curKind at hn
      rw [hu] at hn
      exact absurd (congrArg some hk) hn
    · intro x c1 hx y c2 hy
      obtain ⟨hp1, hn1⟩ : PReach src c1 ∧ NotNL src c1 := run_notNL (f := .stmt) hx hp
      obtain ⟨ts1, hc1, hr1⟩ : Rd c x c1 := run_reads (f := .stmt) hx
      obtain ⟨xs, ts, v, e, rfl, hc, hv, hk, hr⟩ := fileLoop_struct hy hp1 hn1
      exact ⟨x :: xs, ts1 ++ ts, v, e, by simp, hc1.trans hc, hv, hk, hr1.cons hr⟩

/-- A file is a sequence of statements up to the end of the text. -/
theorem fileInput_struct {n t c'} (h : run n .fileInput (PSt.new (Lexer.new src)) = .ok t c') :
    ∃ xs ts u s e, t = .node .FileInput s e [.seq xs.reverse, .seq [], .tok u] ∧ Tokens (Lexer.new src) (ts ++ [u]) c'.lex ∧
      u.kind = .EOF ∧ Reads xs ts := by
  cases n with
  | zero => simp [run] at h
  | succ n =>
    refine wp_sound (Φ := fun f c t c' => run n f c = .ok t c') (fun _ _ _ _ h => h) (body .fileInput) (PSt.new (Lexer.new src))
      (fun t c' => ∃ xs ts u s e, t = .node .FileInput s e [.seq xs.reverse, .seq [], .tok u] ∧
        Tokens (Lexer.new src) (ts ++ [u]) c'.lex ∧ u.kind = .EOF ∧ Reads xs ts) ?_ t c' h
    simp only [body, fileInputBody, wp_bind, wp_here, wp_next, wp_parse]
    intro y c2 hy
    have hn : NotNL src (PSt.new (Lexer.new src)).advance := by
      unfold NotNL curKind
      intro hk
      cases hg : getSymbol (Lexer.new src) with
      | ok u l =>
        have : (PSt.new (Lexer.new src)).advance.symbol = .ok u := by unfold PSt.advance; rw [show (PSt.new (Lexer.new src)).lex = Lexer.new src from rfl, hg]
        rw [this] at hk
        exact C46_not_first src l u hg (Option.some.inj hk)
      | err x l =>
        have : (PSt.new (Lexer.new src)).advance.symbol = .error x := by unfold PSt.advance; rw [show (PSt.new (Lexer.new src)).lex = Lexer.new src from rfl, hg]
        rw [this] at hk
        simp at hk
    obtain ⟨xs, ts, u, e, rfl, hc, hu, hk, hr⟩ := fileLoop_struct hy (.adv .new) hn
    exact ⟨xs, ts, u, _, e, rfl, hc.tokens (c := PSt.new (Lexer.new src)) rfl rfl hu, hk, hr⟩

end

/-! ### No file node inside another node -/

/-- No such field is a file node. -/
def Field.noFile : Field → Bool
  | .t _ | .any | .none | .empty => true
  | .e k => 0 < k
  | .is tags => .FileInput ∉ tags
  | .head g f => g ≠ .FileInput && f.noFile
  | .opt f | .many f | .many1 f => f.noFile
  | .or f g | .pair f g => f.noFile && g.noFile

theorem schema_noFile (g : Tag) : ∀ c ∈ schema g, ∀ f ∈ c, Field.noFile f = true := by
  cases g <;> decide

/-- Not a file node, nor are elements of lists. -/
inductive NoFileTop : Tree → Prop
  | tok {t} : NoFileTop (.tok t)
  | none : NoFileTop .none
  | seq {l} : (∀ x ∈ l, NoFileTop x) → NoFileTop (.seq l)
  | node {g s e l} : g ≠ .FileInput → NoFileTop (.node g s e l)

theorem has_noFile : ∀ {f : Field} {x : Tree}, Has f x → f.noFile = true → NoFileTop x
  | .t _, _, ⟨_, h, _⟩, _ => h ▸ .tok
  | .any, _, ⟨_, h⟩, _ => h ▸ .tok
  | .e k, x, h, hf => by
    cases x with
    | node g s e l =>
      refine .node ?_
      rintro rfl
      simp [Field.noFile] at hf
      simp [Has, Tree.strength, Tag.strength] at h
      omega
    | _ => simp [Has, Tree.strength, Field.noFile] at h hf; omega
  | .is tags, x, ⟨g, h, h'⟩, hf => by
    cases x with
    | node g' s e l =>
      simp [Tree.tag?] at h'
      subst h'
      refine .node ?_
      rintro rfl
      simp [Field.noFile] at hf
      exact hf h
    | _ => simp [Tree.tag?] at h'
  | .head g f, _, ⟨s, e, a, l, h, _⟩, hf => by
    subst h
    refine .node ?_
    rintro rfl
    simp [Field.noFile] at hf
  | .none, _, h, _ => by rw [Has] at h; exact h ▸ .none
  | .empty, _, h, _ => by rw [Has] at h; exact h ▸ .seq (by simp)
  | .opt f, _, h, hf => by
    rw [Has] at h
    rcases h with rfl | h
    · exact .none
    · exact has_noFile h hf
  | .or f g, _, h, hf => by
    rw [Has] at h
    simp [Field.noFile] at hf
    rcases h with h | h
    · exact has_noFile h hf.1
    · exact has_noFile h hf.2
  | .pair f g, _, ⟨a, b, h, h1, h2⟩, hf => by
    subst h
    simp [Field.noFile] at hf
    exact .seq (by simp; exact ⟨has_noFile h1 hf.1, has_noFile h2 hf.2⟩)
  | .many f, _, ⟨l, h, h1⟩, hf => by
    subst h
    exact .seq fun x hx => has_noFile (h1 x hx) hf
  | .many1 f, _, ⟨l, h, _, h1⟩, hf => by
    subst h
    exact .seq fun x hx => has_noFile (h1 x hx) hf

theorem hasAll_noFile : ∀ {c : List Field} {l : List Tree}, HasAll c l → (∀ f ∈ c, Field.noFile f = true) → ∀ x ∈ l, NoFileTop x
  | [], [], _, _, x, hx => by simp at hx
  | f :: c, y :: l, h, hf, x, hx => by
    rcases List.mem_cons.1 hx with rfl | hx
    · exact has_noFile h.1 (hf f (by simp))
    · exact hasAll_noFile h.2 (fun f h => hf f (by simp [h])) x hx
  | [], _ :: _, h, _, _, _ => h.elim
  | _ :: _, [], h, _, _, _ => h.elim

/-- In a well formed tree that is no file node there is none. -/
theorem noFile_inside {x t} (hi : Inside x t) (ht : t.All NodeOk) (h : NoFileTop t) : NoFileTop x := by
  induction hi with
  | here => exact h
  | seq h1 _ ih =>
    rw [Tree.All] at ht
    cases h with | seq h => exact ih (allIn_mem ht h1) (h _ h1)
  | node h1 _ ih =>
    rw [Tree.All] at ht
    obtain ⟨⟨⟨c, hc, ha⟩, -⟩, hl⟩ := ht
    exact ih (allIn_mem hl h1) (hasAll_noFile ha (schema_noFile _ c hc) _ h1)

end Verif
