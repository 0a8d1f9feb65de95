import Verif.Proof.MessageAll
import Verif.Props.ErrorPos
import Verif.Spec.Erase

/-!
# C76: the messages of syntax errors are true
-/

namespace Verif

theorem honest_stop [Uni] {α : Type} {n : Nat} (hrec : ∀ f c q m, run n f c = .err q m → Told m (runStop n f c).symbol) (p : Prog α) :
    ∀ c, Honest p c.symbol → ∀ q m, p.exec (run n) c = .err q m → Told m (p.stop (run n) (runStop n) c).symbol := by
  induction p with
  | ret => intro c _ q m h; simp [Prog.exec] at h
  | fail =>
    intro c hc q m h
    simp only [Prog.exec, Res.err.injEq] at h
    exact h.2 ▸ hc
  | panic => intro c _ q m h; simp [Prog.exec] at h
  | getPos k ih => intro c hc q m h; exact ih _ c (hc _) q m h
  | getExc k ih => intro c hc q m h; exact ih _ c (hc _) q m h
  | sym k x ih1 ih2 =>
    intro c hc q m h
    simp only [Prog.exec] at h
    simp only [Prog.stop]
    cases hs : c.symbol with
    | ok t =>
      rw [hs] at hc h
      exact ih1 t c (hs ▸ hc) q m h
    | error e =>
      rw [hs] at hc h
      exact ih2 c (hs ▸ hc) q m h
  | adv k ih => intro c hc q m h; exact ih _ (hc _) q m h
  | call f k ih =>
    intro c hc q m h
    simp only [Prog.exec] at h
    simp only [Prog.stop]
    cases hr : run n f c with
    | ok t c' =>
      rw [hr] at h
      exact ih t c' (hc t _) q m h
    | err q' m' =>
      rw [hr] at h
      cases h
      exact hrec f c _ _ hr
    | panic | diverge => rw [hr] at h; cases h
  | setExc x k ih => intro c hc q m h; exact ih { c with exc := x } hc q m h

theorem told_run [Uni] : ∀ n f c q m, run n f c = .err q m → Told m (runStop n f c).symbol
  | 0, _, _, _, _, h => by simp [run] at h
  | n + 1, f, c, q, m, h => honest_stop (told_run n) (body f) c (hon_body f) q m h

/-- C76: what the message of a syntax error says about the symbol at which the parser stopped is true.  A message that
names symbols is given only if there is none of them; one that says that there was no symbol, only if the next symbol
could not be read.  (partial: five messages may be wrong, see below.) -/
theorem C76_messages_partial [Uni] (n : Nat) (f : Fn) (c : PSt) (p : Nat) (m : String) (h : run n f c = .err p m) :
    m ∈ misleadingMessages ∨ ∃ says, Says m says ∧ says.holds (runStop n f c).symbol :=
  told_run n f c p m h

theorem messages_nodup : (unreadableMessages ++ namingMessages.map (·.1) ++ misleadingMessages).Nodup := by decide +kernel

theorem pair_unique {α β : Type} : ∀ {l : List (α × β)}, (l.map (·.1)).Nodup → ∀ {a b c}, (a, b) ∈ l → (a, c) ∈ l → b = c
  | [], _, _, _, _, h, _ => by cases h
  | (x, y) :: l, hn, a, b, c, h1, h2 => by
    simp only [List.map_cons, List.nodup_cons] at hn
    rcases List.mem_cons.1 h1 with e1 | h1 <;> rcases List.mem_cons.1 h2 with e2 | h2
    · cases e1; cases e2; rfl
    · cases e1; exact absurd (List.mem_map.2 ⟨_, h2, rfl⟩) hn.1
    · cases e2; exact absurd (List.mem_map.2 ⟨_, h1, rfl⟩) hn.1
    · exact pair_unique hn.2 h1 h2

/-- C76: every message says one thing, so what is true above is what the message says. -/
theorem C76_one_meaning (m : String) (c d : Saying) (hc : Says m c) (hd : Says m d) : c = d ∧ m ∉ misleadingMessages := by
  have hn := messages_nodup
  rw [List.nodup_append, List.nodup_append] at hn
  obtain ⟨⟨h1, h2, h3⟩, h4, h5⟩ := hn
  have mem : ∀ {c}, Says m c → m ∈ unreadableMessages ++ namingMessages.map (·.1) := by
    intro c h
    cases h with
    | unreadable h => exact List.mem_append_left _ h
    | named h => exact List.mem_append_right _ (List.mem_map.2 ⟨_, h, rfl⟩)
  refine ⟨?_, fun h => h5 _ (mem hc) _ h rfl⟩
  cases hc with
  | unreadable hc =>
    cases hd with
    | unreadable => rfl
    | named hd => exact absurd rfl (h3 _ hc _ (List.mem_map.2 ⟨_, hd, rfl⟩))
  | named hc =>
    cases hd with
    | unreadable hd => exact absurd rfl (h3 _ hd _ (List.mem_map.2 ⟨_, hc, rfl⟩))
    | named hd => exact pair_unique h2 hc hd

/-- The run ends with the message `m`, at a symbol that satisfies `k`. -/
def stopsWith [Uni] (n : Nat) (f : Fn) (src : List Char) (m : String) (k : Token → Bool) : Bool :=
  match run n f (PSt.new (Lexer.new src)), (runStop n f (PSt.new (Lexer.new src))).symbol with
  | .err _ m', .ok t => m' == m && k t
  | _, _ => false

theorem stopsWith_spec [Uni] {n f src m k} (h : stopsWith n f src m k = true) :
    ∃ p t, run n f (PSt.new (Lexer.new src)) = .err p m ∧ (runStop n f (PSt.new (Lexer.new src))).symbol = .ok t ∧ k t = true := by
  unfold stopsWith at h
  split at h
  · rename_i h1 h2
    simp only [Bool.and_eq_true, beq_iff_eq] at h
    exact ⟨_, _, by rw [h1, h.1], h2, h.2⟩
  · cases h

/-- C76 is false of the five messages.  An opening parenthesis is "expected" where there is one; the end of the file is
"expected" at the end of the file (a line end is missing); after `except a` the parser asks for `except*` when it sees
`except*`, and the other way around (the name that follows is the symbol it stopped at); `{}` is said not to be a
dictionary. -/
theorem C76_misleading :
    let _ := asciiUni
    (∃ p t, run 50 .funcTypeInput (PSt.new (Lexer.new (cs! "() ("))) = .err p "Expecting '(' in functional type!" ∧
      (runStop 50 .funcTypeInput (PSt.new (Lexer.new (cs! "() (")))).symbol = .ok t ∧ t.kind = .PyLeftParen) ∧
    (∃ p t, run 50 .fileInput (PSt.new (Lexer.new (cs! "@a"))) = .err p "Expecting end of file in function input!" ∧
      (runStop 50 .fileInput (PSt.new (Lexer.new (cs! "@a")))).symbol = .ok t ∧ t.kind = .EOF) ∧
    (∃ p t, run 90 .fileInput (PSt.new (Lexer.new (cs! "try:\n  pass\nexcept a:\n  pass\nexcept* b:\n  pass\n"))) =
        .err p "Expecting 'except*' except statement!" ∧
      (runStop 90 .fileInput (PSt.new (Lexer.new (cs! "try:\n  pass\nexcept a:\n  pass\nexcept* b:\n  pass\n")))).symbol = .ok t ∧
      t.bare = .name 0 0 none (cs! "b")) ∧
    (∃ p t, run 90 .fileInput (PSt.new (Lexer.new (cs! "try:\n  pass\nexcept* a:\n  pass\nexcept b:\n  pass\n"))) =
        .err p "Expecting 'except' except statement!" ∧
      (runStop 90 .fileInput (PSt.new (Lexer.new (cs! "try:\n  pass\nexcept* a:\n  pass\nexcept b:\n  pass\n")))).symbol = .ok t ∧
      t.bare = .name 0 0 none (cs! "b")) ∧
    (∃ p t, run 50 .evalInput (PSt.new (Lexer.new (cs! "{}"))) = .err p "Expecting dictionary/set in atom expression!" ∧
      (runStop 50 .evalInput (PSt.new (Lexer.new (cs! "{}")))).symbol = .ok t ∧ t.kind = .EOF) := by
  let _ := asciiUni
  have conv : ∀ {n f src m k} {K : Token → Prop}, stopsWith n f src m k = true → (∀ t, k t = true → K t) →
      ∃ p t, run n f (PSt.new (Lexer.new src)) = .err p m ∧ (runStop n f (PSt.new (Lexer.new src))).symbol = .ok t ∧ K t := by
    intro n f src m k K h hk
    obtain ⟨p, t, h1, h2, h3⟩ := stopsWith_spec h
    exact ⟨p, t, h1, h2, hk t h3⟩
  exact ⟨conv (k := fun t => t.kind == .PyLeftParen) (by decide +kernel) (by simp), conv (k := fun t => t.kind == .EOF) (by decide +kernel) (by simp),
    conv (k := fun t => t.bare == .name 0 0 none (cs! "b")) (by decide +kernel) (by simp),
    conv (k := fun t => t.bare == .name 0 0 none (cs! "b")) (by decide +kernel) (by simp),
    conv (k := fun t => t.kind == .EOF) (by decide +kernel) (by simp)⟩

/-! ### The hypotheses are met -/

/-- `if a b` lacks the colon, and that is what the message says. -/
example : let _ := asciiUni
    ∃ p t, run 60 .fileInput (PSt.new (Lexer.new (cs! "if a b\n"))) = .err p "Expecting ':' in if statement!" ∧
      (runStop 60 .fileInput (PSt.new (Lexer.new (cs! "if a b\n")))).symbol = .ok t ∧ t.kind ≠ .PyColon := by
  let _ := asciiUni
  obtain ⟨p, t, h1, h2, -⟩ := stopsWith_spec (n := 60) (f := .fileInput) (src := cs! "if a b\n") (m := "Expecting ':' in if statement!")
    (k := fun _ => true) (by decide +kernel)
  refine ⟨p, t, h1, h2, fun hk => ?_⟩
  have hs : Says "Expecting ':' in if statement!" (.missing [.PyColon]) := .named (by simp [namingMessages])
  rcases C76_messages_partial _ _ _ _ _ h1 with h | ⟨c, hc, hh⟩
  · exact (C76_one_meaning _ _ _ hs hs).2 h
  · rw [(C76_one_meaning _ _ _ hc hs).1, h2] at hh
    exact hh t rfl (by simp [hk])

end Verif
