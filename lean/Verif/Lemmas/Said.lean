import Verif.Spec.Said
import Verif.Lemmas.Scan
import Verif.Lemmas.Reads
import Verif.Termination

/-!
# The parser reads nothing into the tokens: rules

`Ord pre p c`: if `p`, called with the words `pre` in hand, returns `a`, then some words of `c a` followed by what `p`
leaves are among `pre` and the tokens `p` was given, in order.
-/

namespace SqlV.Said

open Core (lower_self)

set_option linter.unusedSectionVars false

/-- Some words of the set are among those given, in order. -/
def Fits (a : Lang) (l : List Str) : Prop := ∃ ws, a ws ∧ ws.Sublist l

theorem cat_assoc (a b c : Lang) : (a ⋆ b) ⋆ c = a ⋆ b ⋆ c := by
  funext ws
  apply propext
  constructor
  · rintro ⟨_, z, ⟨x, y, ha, hb, rfl⟩, hc, rfl⟩
    exact ⟨x, y ++ z, ha, ⟨y, z, hb, hc, rfl⟩, by simp⟩
  · rintro ⟨x, _, ha, ⟨y, z, hb, hc, rfl⟩, rfl⟩
    exact ⟨x ++ y, z, ⟨x, y, ha, hb, rfl⟩, hc, by simp⟩

theorem skip_cat (a : Lang) : skip ⋆ a = a := by
  funext ws
  apply propext
  constructor
  · rintro ⟨_, z, rfl, hc, rfl⟩
    exact hc
  · intro h
    exact ⟨[], ws, rfl, h, rfl⟩

theorem cat_skip (a : Lang) : a ⋆ skip = a := by
  funext ws
  apply propext
  constructor
  · rintro ⟨x, _, ha, rfl, rfl⟩
    simpa using ha
  · intro h
    exact ⟨ws, [], h, rfl, by simp⟩

namespace Fits

variable {a b : Lang} {l m : List Str}

theorem mono (h : Fits a l) (hs : l.Sublist m) : Fits a m := by
  obtain ⟨ws, hw, h⟩ := h
  exact ⟨ws, hw, h.trans hs⟩

theorem of (h : a l) : Fits a l := ⟨l, h, .refl _⟩

theorem cat (ha : Fits a l) (hb : Fits b m) : Fits (a ⋆ b) (l ++ m) := by
  obtain ⟨x, hx, hxl⟩ := ha
  obtain ⟨y, hy, hym⟩ := hb
  exact ⟨x ++ y, ⟨x, y, hx, hy, rfl⟩, hxl.append hym⟩

theorem left (h : Fits a l) : Fits a (l ++ m) := h.mono (List.sublist_append_left _ _)

theorem right (h : Fits a m) : Fits a (l ++ m) := h.mono (List.sublist_append_right _ _)

theorem skip : Fits skip l := ⟨[], rfl, List.nil_sublist _⟩

theorem skip_left (h : Fits a l) : Fits (Said.skip ⋆ a) l := by rwa [skip_cat]

theorem one {p : Str → Prop} {t : Str} (h : p t) : Fits (one p) [t] := of ⟨t, h, rfl⟩

theorem tok {t : Str} : Fits (tok t) [t] := one rfl

theorem lit : Fits (lit l) l := of rfl

theorem orl (h : Fits a l) : Fits (either a b) l := by
  obtain ⟨ws, hw, h⟩ := h
  exact ⟨ws, .inl hw, h⟩

theorem orr (h : Fits b l) : Fits (either a b) l := by
  obtain ⟨ws, hw, h⟩ := h
  exact ⟨ws, .inr hw, h⟩

theorem split (h : Fits (a ⋆ b) l) : ∃ x y, Fits a x ∧ Fits b y ∧ (x ++ y).Sublist l := by
  obtain ⟨_, ⟨x, y, ha, hb, rfl⟩, h⟩ := h
  exact ⟨x, y, of ha, of hb, h⟩

end Fits

/-- The rule for parsers. -/
def Ord (pre : List Str) (p : P α) (c : α → Lang) : Prop :=
  ∀ s a s', p s = .ok (a, s') → ∃ w, c a w ∧ (w ++ s'.toks).Sublist (pre ++ s.toks)

namespace Ord

variable {pre : List Str} {c : α → Lang}

theorem weaken {pre' : List Str} {p : P α} (h : Ord pre' p c) (hs : pre'.Sublist pre) : Ord pre p c := by
  intro s a s' e
  obtain ⟨w, hw, hl⟩ := h s a s' e
  exact ⟨w, hw, hl.trans (hs.append (.refl _))⟩

theorem pure {a : α} (h : Fits (c a) pre) : Ord pre (pure a : P α) c := by
  intro s a s' e
  cases e
  obtain ⟨w, hw, hl⟩ := h
  exact ⟨w, hw, hl.append (.refl _)⟩

theorem raise {e : PyErr} : Ord pre (P.raise e : P α) c := by
  intro s a s' h
  cases h

theorem thread {p : P α} {f : α → P β} {b : α → Lang} {c : β → Lang} (hp : Ord pre p b)
    (hf : ∀ a w, b a w → Ord w (f a) c) : Ord pre (p >>= f) c := by
  intro s x s' e
  change P.bind p f s = _ at e
  unfold P.bind at e
  cases hps : p s with
  | ok y =>
    obtain ⟨a, s1⟩ := y
    rw [hps] at e
    obtain ⟨w, hw, hl⟩ := hp _ _ _ hps
    obtain ⟨w', hw', hl'⟩ := hf a w hw _ _ _ e
    exact ⟨w', hw', hl'.trans hl⟩
  | err _ => rw [hps] at e; cases e
  | diverge => rw [hps] at e; cases e

theorem frame {p : P α} {b : α → Lang} (hp : Ord [] p b) : Ord pre p fun a => lit pre ⋆ b a := by
  intro s a s' e
  obtain ⟨w, hw, hl⟩ := hp s a s' e
  refine ⟨pre ++ w, ⟨pre, w, rfl, hw, rfl⟩, ?_⟩
  rw [List.append_assoc]
  exact (List.Sublist.refl _).append hl

theorem read {p : P α} {f : α → P β} {b : α → Lang} {c : β → Lang} (hp : Ord [] p b)
    (hf : ∀ a w, b a w → Ord (pre ++ w) (f a) c) : Ord pre (p >>= f) c := by
  refine thread (frame hp) ?_
  rintro a _ ⟨_, w, rfl, hw, rfl⟩
  exact hf a w hw

theorem sub {ts : List Str} {p : P α} {f : α → P β} {b : α → Lang} {c : β → Lang} (hp : Ord [] p b)
    (hf : ∀ a, Fits (b a) ts → Ord pre (f a) c) : Ord pre (P.sub ts p >>= f) c := by
  intro s x s' e
  change P.bind (P.sub ts p) f s = _ at e
  unfold P.bind P.sub at e
  cases hps : p ⟨ts, none⟩ with
  | ok y =>
    obtain ⟨a, s1⟩ := y
    rw [hps] at e
    obtain ⟨w, hw, hl⟩ := hp _ _ _ hps
    exact hf a ⟨w, hw, (List.sublist_append_left _ _).trans hl⟩ _ _ _ e
  | err _ => rw [hps] at e; cases e
  | diverge => rw [hps] at e; cases e

theorem sub' {ts : List Str} {p : P α} (hp : Ord [] p c) (h : ts.Sublist pre) : Ord pre (P.sub ts p) c := by
  intro s x s' e
  unfold P.sub at e
  cases hps : p ⟨ts, none⟩ with
  | ok y =>
    obtain ⟨a, s1⟩ := y
    rw [hps] at e
    cases e
    obtain ⟨w, hw, hl⟩ := hp _ _ _ hps
    exact ⟨w, hw, (((List.sublist_append_left _ _).trans hl).trans h).append (.refl _)⟩
  | err _ => rw [hps] at e; cases e
  | diverge => rw [hps] at e; cases e

theorem orElse {p q : P α} (hp : Ord pre p c) (hq : Ord pre q c) : Ord pre (P.orElseParsing p q) c := by
  intro s x s' e
  unfold P.orElseParsing at e
  cases hps : p s with
  | ok y => rw [hps] at e; exact hp s x s' (hps.trans e)
  | diverge => rw [hps] at e; cases e
  | err er =>
    rw [hps] at e
    cases er <;> first | exact hq s x s' e | cases e

theorem assert {b : Bool} {f : Unit → P β} {c : β → Lang} (h : b = true → Ord pre (f ()) c) :
    Ord pre (P.assert b >>= f) c := by
  cases b with
  | true => exact h rfl
  | false => intro s a s' e; cases e

theorem next! {f : Str → P β} {c : β → Lang} (h : ∀ t, Ord (pre ++ [t]) (f t) c) : Ord pre (next! >>= f) c := by
  refine read (b := Said.tok) ?_ ?_
  · intro s a s' e
    unfold SqlV.next! at e
    rcases s with ⟨_ | ⟨t, ts⟩, _ | _⟩ <;> cases e <;> exact ⟨[_], ⟨_, rfl, rfl⟩, .refl _⟩
  · rintro a _ ⟨_, rfl, rfl⟩
    exact h _

theorem next? {f : Option Str → P β} {c : β → Lang} (h : ∀ t, Ord (pre ++ t.toList) (f t) c) :
    Ord pre (next? >>= f) c := by
  refine read (b := fun t => lit t.toList) ?_ ?_
  · intro s a s' e
    unfold SqlV.next? at e
    rcases s with ⟨_ | ⟨t, ts⟩, _ | _⟩ <;> cases e <;> exact ⟨_, rfl, .refl _⟩
  · rintro a _ rfl
    exact h _

theorem afterScan {stopped : Bool} {rest : List Str} {a : α} {s s' : Stream} {x : α}
    (e : afterScan stopped rest a s = .ok (x, s')) : x = a ∧ s'.toks = rest := by
  unfold SqlV.afterScan at e
  rcases s with ⟨ts, _ | _⟩ <;> cases stopped <;> cases e <;> exact ⟨rfl, rfl⟩

theorem scanClosing_sublist (l : List Str) : ∀ c : Int,
    ((scanClosing c l).1 ++ (scanClosing c l).2.2).Sublist l := by
  induction l with
  | nil => intro c; exact .refl _
  | cons t ts ih =>
    intro c
    unfold scanClosing
    split
    · exact List.sublist_cons_self _ _
    · exact (ih _).cons_cons t

end Ord

variable [E : PyEnv] [L : LawfulPyEnv E]

namespace Ord

variable {pre : List Str} {β : Type} {c : β → Lang}

theorem untilClosing {f : List Str → P β} (h : ∀ ts, Ord (pre ++ ts) (f ts) c) :
    Ord pre (untilClosing >>= f) c := by
  refine read (b := fun ts => lit ts) ?_ ?_
  · intro s a s' e
    obtain ⟨rfl, h2⟩ := afterScan e
    exact ⟨_, rfl, by rw [h2]; exact scanClosing_sublist _ _⟩
  · rintro a _ rfl
    exact h _

theorem untilClosing_first {f : List Str → P β} {t : Str} (h : ∀ ts, Ord (pre ++ ts) (f ts) c) :
    Ord (pre ++ [t]) (SqlV.untilClosing (some t) >>= f) c := by
  refine thread (b := fun ts => lit (pre ++ ts)) ?_ ?_
  · intro s a s' e
    obtain ⟨rfl, h2⟩ := afterScan e
    refine ⟨_, rfl, ?_⟩
    rw [h2, List.append_assoc, List.append_assoc]
    refine (List.Sublist.refl _).append ?_
    refine (scanClosing_sublist _ _).trans ?_
    dsimp only
    split
    · exact List.sublist_append_right _ _
    · exact .refl _
  · rintro a _ rfl
    exact h _

theorem scanOneOf_eq (stop : List Str) (keep : List (Str × Str)) (l : List Str) :
    ∀ last d, (scanOneOf stop keep last d l).1 ++ ((scanOneOf stop keep last d l).2.1.toList ++
      (scanOneOf stop keep last d l).2.2) = l := by
  intro last d
  have h := scanOneOf_sound stop keep l last d
  revert h
  rcases scanOneOf stop keep last d l with ⟨b, _ | w, r⟩
  · rintro ⟨rfl, rfl⟩; simp
  · rintro ⟨rfl, _⟩; simp

theorem scanOneOf_stop (stop : List Str) (keep : List (Str × Str)) (l : List Str) (last : Option Str) (d : Depth) (x : Str)
    (hx : (scanOneOf stop keep last d l).2.1 = some x) : lower x ∈ stop :=
  (scanOneOf_length stop keep l last d).2 x hx

theorem untilOneOf {stop : List Str} {keep : List (Str × Str)} {f : List Str × Option Str → P β}
    (h : ∀ ts t, (∀ x, t = some x → lower x ∈ stop) → Ord (pre ++ (ts ++ t.toList)) (f (ts, t)) c) :
    Ord pre (untilOneOf stop none keep >>= f) c := by
  refine read (b := fun x ws => (∀ y, x.2 = some y → lower y ∈ stop) ∧ ws = x.1 ++ x.2.toList) ?_ ?_
  · intro s a s' e
    obtain ⟨rfl, h2⟩ := afterScan e
    refine ⟨_, ⟨?_, rfl⟩, ?_⟩
    · intro y hy; exact scanOneOf_stop _ _ _ _ _ _ hy
    · rw [h2, List.append_assoc]
      exact (scanOneOf_eq _ _ _ _ _ ▸ List.Sublist.refl _)
  · rintro ⟨ts, t⟩ _ ⟨h1, rfl⟩
    exact h _ _ h1

theorem untilOneOf_first {stop : List Str} {keep : List (Str × Str)} {f : List Str × Option Str → P β} {w : Str}
    (h : ∀ ts t, (∀ x, t = some x → lower x ∈ stop) → ts ≠ [] → Ord (pre ++ (ts ++ t.toList)) (f (ts, t)) c) :
    Ord (pre ++ [w]) (SqlV.untilOneOf stop (some w) keep >>= f) c := by
  refine thread (b := fun x ws => (∀ y, x.2 = some y → lower y ∈ stop) ∧ x.1 ≠ [] ∧
    ws = pre ++ (x.1 ++ x.2.toList)) ?_ ?_
  · intro s a s' e
    obtain ⟨rfl, h2⟩ := afterScan e
    refine ⟨_, ⟨?_, by simp, rfl⟩, ?_⟩
    · intro y hy; exact scanOneOf_stop _ _ _ _ _ _ hy
    · rw [h2]
      have := scanOneOf_eq stop keep s.toks (some w) (Depth.init (some w))
      simp only [List.append_assoc, Option.toList_some, List.cons_append, List.nil_append] at this ⊢
      rw [this]
      exact .refl _
  · rintro ⟨ts, t⟩ _ ⟨h1, h2, rfl⟩
    exact h _ _ h1 h2

theorem scanNotIn_eq (kept : List Str) (l : List Str) :
    (scanNotIn kept l).1 ++ ((scanNotIn kept l).2.1.toList ++ (scanNotIn kept l).2.2) = l ∧
      ∀ x ∈ (scanNotIn kept l).1, lower x ∈ kept := by
  induction l with
  | nil => simp [scanNotIn]
  | cons t ts ih =>
    unfold scanNotIn
    split
    · rename_i h
      refine ⟨by simpa using ih.1, ?_⟩
      intro x hx
      rcases List.mem_cons.1 hx with rfl | hx
      · exact h
      · exact ih.2 x hx
    · simp

theorem untilNotIn_first {kept : List Str} {f : List Str × Option Str → P β} {w : Str} (hw : lower w ∈ kept)
    (h : ∀ ts t, ts ≠ [] → (∀ x ∈ ts, lower x ∈ kept) → Ord (pre ++ (ts ++ t.toList)) (f (ts, t)) c) :
    Ord (pre ++ [w]) (untilNotIn kept (some w) >>= f) c := by
  refine thread (b := fun x ws => x.1 ≠ [] ∧ (∀ y ∈ x.1, lower y ∈ kept) ∧
    ws = pre ++ (x.1 ++ x.2.toList)) ?_ ?_
  · intro s a s' e
    obtain ⟨rfl, h2⟩ := afterScan e
    have := scanNotIn_eq kept s.toks
    refine ⟨_, ⟨by simp, ?_, rfl⟩, ?_⟩
    · intro y hy
      simp only [Option.toList, List.cons_append, List.nil_append, List.mem_cons] at hy
      rcases hy with rfl | hy
      · exact hw
      · exact this.2 y hy
    · rw [h2]
      simp only [List.append_assoc, Option.toList_some, List.cons_append, List.nil_append] at this ⊢
      rw [this.1]
      exact .refl _
  · rintro ⟨ts, t⟩ _ ⟨h1, h2, rfl⟩
    exact h _ _ h1 h2

theorem drain {f : List Str → P β} (h : ∀ ts, Ord (pre ++ ts) (f ts) c) : Ord pre (drain >>= f) c := by
  refine read (b := fun ts => lit ts) ?_ ?_
  · intro s a s' e
    unfold SqlV.drain at e
    rcases s with ⟨ts, _ | _⟩ <;> cases e
    exact ⟨_, rfl, by simp⟩
  · rintro a _ rfl
    exact h _

theorem toIntP {x : Str} {f : Int → P β} (h : ∀ i, E.toInt x = some i → Ord pre (f i) c) :
    Ord pre (toIntP x >>= f) c := by
  unfold SqlV.toIntP
  cases hx : E.toInt x with
  | none => intro s a s' e; cases e
  | some i => exact h i hx

theorem floatStrP {x : Str} {f : Str → P β} (h : ∀ i, E.floatStr x = some i → Ord pre (f i) c) :
    Ord pre (floatStrP x >>= f) c := by
  unfold SqlV.floatStrP
  cases hx : E.floatStr x with
  | none => intro s a s' e; cases e
  | some i => exact h i hx

end Ord

/-- The token held by a parser; a quote does not count. -/
def la : Option Str → List Str
  | none => []
  | some t => if lower t ∈ [str!"'", str!"\"", str!"`"] then [] else [t]

theorem la_sub (t : Option Str) : (la t).Sublist t.toList := by
  cases t with
  | none => exact .refl _
  | some x =>
    simp only [la]
    split
    · exact List.nil_sublist _
    · exact .refl _

theorem la_word {t k : Str} (h : lower t = k) (hk : k ∉ [str!"'", str!"\"", str!"`"] := by decide) : la (some t) = [t] := by
  simp only [la]
  rw [if_neg (by rw [h]; exact hk)]

/-- What an expression parser returns: the expression and the token after it. -/
def held (x : Node × Option Str) : Lang := said x.1 ⋆ lit (la x.2)

/-- The recursive parsers read nothing into the tokens. -/
structure Faithful (r : Rec) : Prop where
  stmt : Ord [] r.stmt said
  select : ∀ k, lower k = str!"select" → Ord [k] r.select said
  from_ : Ord [] r.from_ said
  expr : ∀ a, Ord a.firstToken.toList (r.expr a) held
  exprNil : ∀ a, a.firstToken = none → ∀ f x, r.expr a ⟨[], f⟩ ≠ .ok x
  exprList : ∀ b, Ord [] (r.exprList b) saidList
  orderLoop : ∀ t, (∀ x, t = some x → lower x = str!",") → Ord t.toList (r.orderLoop t) saidMore
  caseLoop : ∀ t ws e pre, (e = .none ∨ t = none) →
    Fits (saidSeq ws ⋆ headed str!"else" e (said e) ⋆ lit t.toList) pre →
    Ord pre (r.caseLoop t ws e) fun x => saidSeq x.1 ⋆ headed str!"else" x.2 (said x.2)
  withLoop : ∀ acc pre, Fits (saidSeq acc) pre → Ord pre (r.withLoop acc) fun qs => saidSeq qs ⋆ word str!"select"
  setLoop : ∀ e t pre, Fits (held (e, t)) pre → Ord pre (r.setLoop e t) held
  joinLoop : ∀ e t pre, Fits (held (e, t)) pre → Ord pre (r.joinLoop e t) said
  dotLoop : ∀ u e t pre, Fits (held (e, t)) pre → Ord pre (r.dotLoop u e t) held
  indexLoop : ∀ e t pre, Fits (held (e, t)) pre → Ord pre (r.indexLoop e t) held

end SqlV.Said
