import Verif.Proof.LexFacts
import Verif.Proof.LexStep
import Verif.Spec.Stream

/-!
# A Newline token is never followed by another one, nor is a Dedent token
-/

namespace Verif

/-- Inside a line, before something that is neither skipped nor a line end. -/
def Lexer.Plain (l : Lexer) : Prop := l.bol = false ∧ hd l.rest ∉ [' ', '\t', '#', '\r', '\n', '\\']

theorem hd_dropBlanks (cs : List Char) : isBlank (hd (cs.drop (cs.takeWhile isBlank).length)) = false := by
  have hdrop : cs.drop (cs.takeWhile isBlank).length = cs.dropWhile isBlank := by
    induction cs with
    | nil => rfl
    | cons c cs ih => by_cases h : isBlank c <;> simp [List.takeWhile, List.dropWhile, h, ih]
  rw [hdrop]
  have := List.head?_dropWhile_not isBlank cs
  cases hd' : cs.dropWhile isBlank with
  | nil => decide
  | cons c r => rw [hd'] at this; simpa using this

theorem bolState_plain {l l1 : Lexer} (hb : l.bol = true) (h : bolState false l = (false, l1)) : l1.Plain := by
  have h1 : (bolState false l).1 = isSkipChar (hd (l.rest.drop l.blanks.length)) := by
    simp only [bolState, hb, if_true, Bool.false_or]; split <;> rfl
  rw [h] at h1
  have h2 := bolState_rest false l
  refine ⟨by have := bolState_bol false l; rw [h] at this; exact this, ?_⟩
  rw [h] at h2
  simp only [bolSkip, hb, if_true] at h2
  rw [h2]
  have h4 := hd_dropBlanks l.rest
  simp only [Lexer.blanks] at h1 ⊢
  simp only [isSkipChar, isBlank] at h1 h4
  simp_all

/-- After the line start step there are changes of indentation to report only before something that is not skipped. -/
theorem bolState_pending {src l l1 b} (hi : Inv src l) (hp : l.pending ≠ 0 → l.Plain)
    (h : bolState false (l.at l.pos) = (b, l1)) (h1 : l1.pending ≠ 0) : l1.Plain := by
  by_cases hb : l.bol = true
  · have hb' : (l.at l.pos).bol = true := hb
    cases b with
    | false => exact bolState_plain hb' h
    | true =>
      exfalso
      have h0 := hi.bolp hb
      unfold bolState at h
      simp only [hb', if_true] at h
      split at h
      · injection h with e1 e2; simp_all
      · injection h with e1 e2; subst e2; exact h1 h0
  · have hb' : (l.at l.pos).bol = false := by simpa using hb
    rw [bolState_mid hb'] at h
    injection h with e1 e2
    subst e2
    exact hp h1

theorem armsResult_pending [Uni] {ts l t l'} (h : armsResult ts l = .ok t l') (ht : l.tokStart = l.pos) :
    l'.pending = l.pending := by
  rcases armsResult_facts ts l ht with ⟨u, j, ps, hres, _⟩ | ⟨e, j, hres, _⟩ <;> rw [hres] at h <;> cases h
  rfl

theorem armsResult_pending_err [Uni] {ts l e l'} (h : armsResult ts l = .err e l') (ht : l.tokStart = l.pos) :
    l'.pending = l.pending := by
  rcases armsResult_facts ts l ht with ⟨u, j, ps, hres, _⟩ | ⟨e, j, hres, _⟩ <;> rw [hres] at h <;> cases h
  rfl

theorem armsResult_kind [Uni] {ts l t l'} (h : armsResult ts l = .ok t l') (ht : l.tokStart = l.pos) :
    t.kind.isLayout = false := by
  rcases armsResult_facts ts l ht with ⟨u, j, ps, hres, _, _, _, _, _, hk, _⟩ | ⟨e, j, hres, _⟩ <;> rw [hres] at h <;> cases h
  exact hk

theorem Reach.plain [Uni] {src l} (h : Reach src l) : l.pending ≠ 0 → l.Plain := by
  induction h with
  | new => intro h; exact absurd rfl h
  | @ok l t l' hr he ih =>
    have hs := getSymbol_step l hr.inv.inter hr.inv.ind
    have hI := (ok_facts hr.inv he).inv
    rw [he] at hs
    intro hp
    generalize hres : (LexRes.ok t l' : LexRes Token) = r at hs
    cases hs with
    | dedent hb h1 =>
      injection hres with _ e; subst e
      have := bolState_pending hr.inv ih hb (by omega)
      exact this
    | indent hb h1 =>
      injection hres with _ e; subst e
      have := bolState_pending hr.inv ih hb (by omega)
      exact this
    | newline hb h1 => injection hres with _ e; subst e; exact absurd h1 hp
    | typeComment hb h1 => injection hres with _ e; subst e; exact absurd h1 hp
    | eof hb h1 => injection hres with _ e; subst e; exact absurd h1 hp
    | badCont => cases hres
    | arms hb h1 hg hn =>
      exfalso
      have := armsResult_pending hres.symm rfl
      exact hp (this.trans h1)
  | @err l e l' hr he ih =>
    have hs := getSymbol_step l hr.inv.inter hr.inv.ind
    rw [he] at hs
    intro hp
    generalize hres : (LexRes.err e l' : LexRes Token) = r at hs
    cases hs with
    | badCont hb h1 => injection hres with _ e; subst e; exact absurd h1 hp
    | arms hb h1 hg hn =>
      exfalso
      have := armsResult_pending_err hres.symm rfl
      exact hp (this.trans h1)
    | _ => cases hres

/-- After a Newline token the tokenizer is at a line start, after a Dedent token it is before something that is
not skipped. -/
theorem after_layout [Uni] {src l t l'} (hr : Reach src l) (he : getSymbol l = .ok t l')
    (hk : t.kind = .Newline ∨ t.kind = .Dedent) : l'.bol = true ∨ l'.Plain := by
  have hs := getSymbol_step l hr.inv.inter hr.inv.ind
  rw [he] at hs
  generalize hres : (LexRes.ok t l' : LexRes Token) = r at hs
  cases hs with
  | dedent hb h1 =>
    injection hres with _ e; subst e
    have := bolState_pending hr.inv hr.plain hb (by omega)
    exact .inr this
  | indent hb h1 => injection hres with e _; subst e; simp [Token.kind] at hk
  | newline hb h1 => injection hres with _ e; subst e; exact .inl rfl
  | typeComment hb h1 => injection hres with e _; subst e; simp [Token.kind] at hk
  | eof hb h1 => injection hres with e _; subst e; simp [Token.kind] at hk
  | badCont => cases hres
  | arms hb h1 hg hn =>
    exfalso
    have := armsResult_kind hres.symm rfl
    rcases hk with hk | hk <;> simp [hk, Kind.isLayout] at this

theorem not_newline [Uni] {src l t l'} (hr : Reach src l) (hl : l.bol = true ∨ l.Plain) (he : getSymbol l = .ok t l') :
    t.kind ≠ .Newline := by
  have hs := getSymbol_step l hr.inv.inter hr.inv.ind
  rw [he] at hs
  generalize hres : (LexRes.ok t l' : LexRes Token) = r at hs
  cases hs with
  | dedent hb h1 => injection hres with e _; subst e; simp [Token.kind]
  | indent hb h1 => injection hres with e _; subst e; simp [Token.kind]
  | newline hb h1 hbf hpar hrun hend =>
    exfalso
    subst hbf
    rename_i l1 ts k m c1 c2 _ _
    have hp : l1.Plain := by
      rcases hl with hl | hl
      · exact bolState_plain (l := l.at l.pos) hl hb
      · have hb' : (l.at l.pos).bol = false := hl.1
        rw [bolState_mid hb'] at hb
        injection hb with e1 e2
        subst e2
        exact hl
    have h2 := hp.2
    cases hrun with
    | nil => cases hend <;> simp_all
    | cons ht _ => cases ht <;> simp_all
  | typeComment hb h1 => injection hres with e _; subst e; simp [Token.kind]
  | eof hb h1 => injection hres with e _; subst e; simp [Token.kind]
  | badCont => cases hres
  | arms hb h1 hg hn =>
    have := armsResult_kind hres.symm rfl
    intro hk; simp [hk, Kind.isLayout] at this

end Verif
