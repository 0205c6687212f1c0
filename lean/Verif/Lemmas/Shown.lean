import Verif.Transform
import Verif.Spec.Shown

/-!
# What the formatter writes, layout aside
-/

namespace SqlV.Shown

set_option linter.unusedSectionVars false

/-! ## Gaps and words -/

theorem Gap.append {a b : Str} (ha : Gap a) (hb : Gap b) : Gap (a ++ b) := by
  intro c hc
  rcases List.mem_append.1 hc with h | h
  · exact ha c h
  · exact hb c h

theorem Gap.nil : Gap [] := fun _ h => by cases h

theorem indentNL_cat (a b : Str) : indentNL (a ++ b) = indentNL a ++ indentNL b := by
  simp [indentNL, Str.replace]

theorem Gap.indent {b : Str} (h : Gap b) : Gap (indentNL b) := by
  intro c hc
  simp only [indentNL, Str.replace, List.mem_flatMap] at hc
  obtain ⟨d, hd, hc⟩ := hc
  split at hc
  · simp at hc
    rcases hc with rfl | rfl <;> simp
  · simp at hc
    exact hc ▸ h d hd

theorem pushed_zero (w : Str) : pushed 0 w = w := by
  unfold pushed
  induction w with
  | nil => rfl
  | cons c w ih =>
    rw [List.flatMap_cons, ih]
    split
    · subst c; rfl
    · rfl

theorem indent_spaces (k : Nat) : indentNL (List.replicate k ' ') = List.replicate k ' ' := by
  induction k with
  | zero => rfl
  | succ k ih =>
    rw [List.replicate_succ, show ' ' :: List.replicate k ' ' = [' '] ++ List.replicate k ' ' from rfl, indentNL_cat, ih]
    rfl

theorem indent_pushed (k : Nat) (w : Str) : indentNL (pushed k w) = pushed (k + 1) w := by
  unfold pushed
  induction w with
  | nil => rfl
  | cons c w ih =>
    rw [List.flatMap_cons, indentNL_cat, ih, List.flatMap_cons]
    congr 1
    split
    · rw [show '\n' :: List.replicate k ' ' = str!"\n" ++ List.replicate k ' ' from rfl, indentNL_cat, indent_spaces,
        List.replicate_succ]
      rfl
    · rename_i h
      simp [indentNL, Str.replace, h]

theorem indent_twice (x : Str) : indentNL2 x = indentNL (indentNL x) := by
  induction x with
  | nil => rfl
  | cons c x ih =>
    have e1 : indentNL2 (c :: x) = indentNL2 [c] ++ indentNL2 x := by simp [indentNL2, Str.replace]
    have e2 : indentNL (c :: x) = indentNL [c] ++ indentNL x := by simp [indentNL, Str.replace]
    rw [e1, e2, indentNL_cat, ih]
    by_cases hc : c = '\n'
    · subst hc; rfl
    · congr 1
      simp [indentNL, indentNL2, Str.replace, hc]

namespace Laid

variable {a b : List Str} {x y : Str}

theorem gap (h : Gap x) (hy : Laid b y) : Laid b (x ++ y) := by
  cases hy with
  | done _ hb => exact .done _ (h.append hb)
  | word g k w ws z hg hz =>
    have := Laid.word (x ++ g) k w ws z (h.append hg) hz
    simpa [List.append_assoc] using this

theorem append (ha : Laid a x) (hb : Laid b y) : Laid (a ++ b) (x ++ y) := by
  induction ha with
  | done g hg => exact hb.gap hg
  | word g k w ws z hg _ ih =>
    have := Laid.word g k w _ _ hg ih
    simpa [List.append_assoc] using this

theorem one (w : Str) : Laid [w] w := by
  have := Laid.word [] 0 w [] [] Gap.nil (.done _ Gap.nil)
  simpa [pushed_zero] using this

theorem space (h : Laid a x) : Laid a (' ' :: x) := gap (x := [' ']) (by intro c hc; simp at hc; simp [hc]) h

theorem newline (h : Laid a x) : Laid a ('\n' :: x) := gap (x := ['\n']) (by intro c hc; simp at hc; simp [hc]) h

theorem nil : Laid [] [] := .done _ Gap.nil

theorem indent (h : Laid a x) : Laid a (indentNL x) := by
  induction h with
  | done g hg => exact .done _ hg.indent
  | word g k w ws z hg _ ih =>
    rw [indentNL_cat, indentNL_cat, indent_pushed]
    exact .word _ _ _ _ _ hg.indent ih

theorem indent2 (h : Laid a x) : Laid a (indentNL2 x) := by
  rw [indent_twice]
  exact h.indent.indent

theorem replicate (c : Char) (n : Nat) : Laid (List.replicate n [c]) (List.replicate n c) := by
  induction n with
  | zero => exact .nil
  | succ n ih => exact append (one [c]) ih

end Laid

/-- Whether a text consists of the words and of gaps. -/
def check : List Str → Str → Bool
  | [], x => x.all fun c => c = ' ' || c = '\n'
  | w :: ws, x => w.isPrefixOf (x.dropWhile fun c => c = ' ' || c = '\n') &&
      check ws ((x.dropWhile fun c => c = ' ' || c = '\n').drop w.length)

theorem Laid.lit {ws : List Str} {x : Str} (h : check ws x = true) : Laid ws x := by
  induction ws generalizing x with
  | nil =>
    refine .done _ fun c hc => ?_
    have := List.all_eq_true.1 h c hc
    simpa using this
  | cons w ws ih =>
    simp only [check, Bool.and_eq_true, List.isPrefixOf_iff_prefix] at h
    obtain ⟨⟨r, hr⟩, h⟩ := h
    rw [← hr, List.drop_left] at h
    have e : x = (x.takeWhile fun c => c = ' ' || c = '\n') ++ pushed 0 w ++ r := by
      rw [pushed_zero, List.append_assoc, hr, List.takeWhile_append_dropWhile]
    rw [e]
    refine .word _ _ _ _ _ (fun c hc => ?_) (ih h)
    have := List.all_eq_true.1 List.all_takeWhile c hc
    simpa using this

theorem Laid.gapl {ws : List Str} {x y : Str} (h : check [] x = true) (hy : Laid ws y) : Laid ws (x ++ y) :=
  append (a := []) (Laid.lit h) hy

/-! ## Methods -/

/-- If the method returns, it returns the words. -/
def Pr (ws : List Str) (m : RStr) : Prop := ∀ x, m = .ok x → Laid ws x

theorem Pr.ok {ws : List Str} {x : Str} (h : Laid ws x) : Pr ws (.ok x) := by
  intro y hy
  cases hy
  exact h

theorem Pr.pure {ws : List Str} {x : Str} (h : Laid ws x) : Pr ws (pure x) := Pr.ok h

theorem Pr.err {ws : List Str} {e : PyErr} : Pr ws (.error e) := fun _ h => by cases h

theorem Pr.bind {α : Type} {ws : List Str} {m : Except PyErr α} {f : α → RStr} (h : ∀ x, m = .ok x → Pr ws (f x)) :
    Pr ws (m >>= f) := by
  intro y hy
  cases hm : m with
  | error e => rw [hm] at hy; cases hy
  | ok x => rw [hm] at hy; exact h x hm y hy

/-- The same, for a method whose words are known. -/
theorem Pr.step {ws vs : List Str} {m : RStr} {f : Str → RStr} (hm : Pr vs m) (h : ∀ x, Laid vs x → Pr ws (f x)) :
    Pr ws (m >>= f) := Pr.bind fun x hx => h x (hm x hx)

theorem Pr.pureBind {α : Type} {ws : List Str} {x : α} {f : α → RStr} (h : Pr ws (f x)) :
    Pr ws ((Pure.pure x : Except PyErr α) >>= f) := h

theorem Pr.errBind {α : Type} {ws : List Str} {e : PyErr} {f : α → RStr} :
    Pr ws ((Except.error e : Except PyErr α) >>= f) := fun _ h => by cases h

theorem Pr.ite {ws : List Str} {c : Prop} [Decidable c] {m k : RStr} (h1 : c → Pr ws m) (h2 : ¬ c → Pr ws k) :
    Pr ws (if c then m else k) := by
  split
  · exact h1 ‹_›
  · exact h2 ‹_›

/-- Word lists and texts, one for one. -/
inductive Each : List (List Str) → List Str → Prop
  | nil : Each [] []
  | cons {ws x l m} : Laid ws x → Each l m → Each (ws :: l) (x :: m)

theorem Each.indent {l : List (List Str)} {xs : List Str} (h : Each l xs) : Each l (xs.map indentNL) := by
  induction h with
  | nil => exact .nil
  | cons h _ ih => exact .cons h.indent ih

/-- With separators between them. -/
def between (sep : List Str) : List (List Str) → List Str
  | [] => []
  | [w] => w
  | w :: ws => w ++ sep ++ between sep ws

theorem Laid.join {l : List (List Str)} {xs : List Str} {sep : Str} {s : List Str} (hs : Laid s sep) (h : Each l xs) :
    Laid (between s l) (Str.join sep xs) := by
  induction h with
  | nil => exact .nil
  | cons h hh ih =>
    cases hh with
    | nil => exact h
    | cons h2 hh => exact (h.append hs).append ih

theorem mapR_each {f : R → RStr} {rs : List R} {l : List (List Str)}
    (h : List.length rs = l.length) (hh : ∀ p ∈ rs.zip l, Pr p.2 (f p.1)) {xs : List Str} (hx : mapR f rs = .ok xs) :
    Each l xs := by
  induction rs generalizing l xs with
  | nil =>
    cases l with
    | nil => cases hx; exact .nil
    | cons => cases h
  | cons r rs ih =>
    cases l with
    | nil => cases h
    | cons w l =>
      unfold mapR at hx
      cases h1 : f r with
      | error e => rw [h1] at hx; cases hx
      | ok x =>
        rw [h1] at hx
        cases h2 : mapR f rs with
        | error e => rw [h2] at hx; cases hx
        | ok ys =>
          rw [h2] at hx
          cases hx
          exact .cons (hh (r, w) (by simp) x h1) (ih (by simpa using h) (fun p hp => hh p (by simp [hp])) h2)

variable [E : PyEnv] [L : LawfulPyEnv E]

/-- What is known of the methods of an object. -/
structure Shows (n : Node) (r : R) : Prop where
  t : Pr (shown n) r.t
  s : sayable n = true → Pr (shown n) r.s
  sub : ended n = true → Pr (shown n) r.sub
  nl : Pr (shown n) r.nl
  flat : Pr (shown n) r.flat
  arg0 : lone n = true → ∀ x, r.arg0 = .ok x → ∃ ws, shown n = [str!"("] ++ ws ++ [str!")"] ∧ Laid ws x
  line : condition n = true → lone n = false → ∀ x, r.t = .ok x → hasNL x = false
  peel : bracketed n = true → ∀ p, r.peel = .ok p → ∃ ws,
    shown n = List.replicate p.count str!"(" ++ ws ++ List.replicate p.count str!")" ∧ Laid ws p.text
  bare : r.aliased = none → side n = true → bracketed n = true
  aliased : ∀ e withAs a, r.aliased = some (e, withAs, a) → side n = true → ∃ vs us,
    shown n = vs ++ (if withAs then [str!"AS"] else []) ++ us ∧ Pr us a ∧
    ∀ p, e = .ok p → ∃ ws, vs = List.replicate p.count str!"(" ++ ws ++ List.replicate p.count str!")" ∧ Laid ws p.text
  fromPos : source n = true → Pr (shown n) r.fromPos

theorem map_ok {α β : Type} {m : Except PyErr α} {f : α → β} {y : β} (h : m.map f = .ok y) : ∃ x, m = .ok x ∧ f x = y := by
  cases m with
  | error e => cases h
  | ok x => exact ⟨x, rfl, by cases h; rfl⟩

theorem Shows.ofStr {n : Node} {s : RStr} (h : Pr (shown n) s) (hl : lone n = true) (hs : side n = bracketed n) :
    Shows n (R.ofStr s) where
  t := h
  s := fun _ => h
  sub := fun _ => .err
  nl := .err
  flat := .err
  arg0 := fun _ _ hx => by cases hx
  line := fun _ h => by rw [hl] at h; cases h
  peel := fun _ p hp => by
    obtain ⟨x, hx, rfl⟩ := map_ok hp
    exact ⟨_, by simp, h x hx⟩
  bare := fun _ h => hs ▸ h
  aliased := fun _ _ _ h => by cases h
  fromPos := fun _ => h

theorem Shows.ofTransform {n : Node} {t s : RStr} (h : Pr (shown n) t) (h2 : sayable n = true → Pr (shown n) s)
    (hl : lone n = true) (hs : side n = bracketed n) : Shows n (R.ofTransform t s) where
  t := h
  s := h2
  sub := fun _ => .err
  nl := .err
  flat := .err
  arg0 := fun _ _ hx => by cases hx
  line := fun _ h => by rw [hl] at h; cases h
  peel := fun _ p hp => by
    obtain ⟨x, hx, rfl⟩ := map_ok hp
    exact ⟨_, by simp, h x hx⟩
  bare := fun _ h => hs ▸ h
  aliased := fun _ _ _ h => by cases h
  fromPos := fun _ => h

theorem truthy_eq (n : Node) : (render n).truthy = present n := by
  cases n <;> rfl

theorem each_eq (n : Node) : (render n).each = isEach n := by
  cases n <;> rfl

/-- What is known of a list of objects. -/
def ShowsAll (l : List Node) : Prop := ∀ n ∈ l, Shows n (render n)

theorem renderList_eq (l : List Node) : renderList l = l.map render := by
  induction l with
  | nil => simp [renderList]
  | cons n l ih => simp [renderList, ih]

theorem between_seq (l : List Node) : between [] (l.map shown) = shownSeq l := by
  induction l with
  | nil => simp [shownSeq, between]
  | cons n l ih =>
    cases l with
    | nil => simp [shownSeq, between]
    | cons m l =>
      rw [List.map_cons, List.map_cons, between, ← List.map_cons, ih]
      · simp [shownSeq]
      · intro h; cases h

theorem between_list (l : List Node) : between [str!","] (l.map shown) = shownList l := by
  have key : ∀ (l : List Node) (n : Node), between [str!","] ((n :: l).map shown) = shown n ++ shownMore l := by
    intro l
    induction l with
    | nil => intro n; simp [shownMore, between]
    | cons m l ih =>
      intro n
      rw [List.map_cons, List.map_cons, between, ← List.map_cons, ih m]
      · simp [shownMore]
      · intro h; cases h
  cases l with
  | nil => simp [shownList, between]
  | cons n l => rw [key, shownList]

theorem each_map {f : R → RStr} {l : List Node} (h : ∀ n ∈ l, Pr (shown n) (f (render n))) {xs : List Str}
    (hx : mapR f (renderList l) = .ok xs) : Each (l.map shown) xs := by
  rw [renderList_eq] at hx
  refine mapR_each (by simp) ?_ hx
  intro p hp
  rw [List.zip_map'] at hp
  simp only [List.mem_map] at hp
  obtain ⟨n, hn, rfl⟩ := hp
  exact h n hn

/-- A list with commas. -/
theorem comma {l : List Node} {xs : List Str} {sep : Str} (hs : Laid [str!","] sep) (h : Each (l.map shown) xs) :
    Laid (shownList l) (Str.join sep xs) := by
  rw [← between_list]
  exact Laid.join hs h

theorem comma_indent {l : List Node} {xs : List Str} {sep : Str} (hs : Laid [str!","] sep) (h : Each (l.map shown) xs) :
    Laid (shownList l) (Str.join sep (xs.map indentNL)) := comma hs h.indent

theorem seq {l : List Node} {xs : List Str} {sep : Str} (hs : Laid [] sep) (h : Each (l.map shown) xs) :
    Laid (shownSeq l) (Str.join sep xs) := by
  rw [← between_seq]
  exact Laid.join hs h

/-- Puts together what is known. -/
macro "laid" : tactic => `(tactic| repeat' (first
  | assumption
  | exact Laid.one _
  | exact Laid.lit (by decide)
  | (refine Laid.append (by assumption) ?_)
  | (refine Laid.append (Laid.indent (by assumption)) ?_)
  | (refine Laid.append (Laid.one _) ?_)
  | (refine Laid.append (Laid.lit (by decide)) ?_)
  | (refine Laid.gapl (by decide) ?_)
  | (with_reducible refine Laid.space ?_)
  | (with_reducible refine Laid.newline ?_)
  | refine Laid.indent ?_))

/-! ## The methods -/

theorem clauseBody_shows {v : Node} (h : Shows v (render v)) (hc : condition v = true) :
    Pr (shown v) (clauseBody (render v)) := by
  unfold clauseBody
  refine Pr.bind fun x hx => ?_
  have h1 := h.t x hx
  refine Pr.ite (fun hp => ?_) fun _ => Pr.ite (fun _ => ?_) fun _ => ?_
  · have hl : lone v = true := by
      cases e : lone v with
      | true => rfl
      | false =>
        have := h.line hc e x hx
        simp [this] at hp
    refine Pr.bind fun y hy => ?_
    obtain ⟨ws, hw, h2⟩ := h.arg0 hl y hy
    rw [hw]
    refine Pr.pure ?_
    simp only [List.append_assoc]
    laid
  · refine Pr.pure ?_
    laid
  · refine Pr.pure ?_
    laid

theorem renderList_nil : renderList [] = [] := by simp [renderList]

theorem renderList_one (n : Node) : renderList [n] = [render n] := by simp [renderList]

theorem shownList_one (n : Node) : shownList [n] = shown n := by simp [shownList, shownMore]

theorem all_sayable {l : List Node} (h : ShowsAll l) (hs : l.all sayable = true) : ∀ n ∈ l, Pr (shown n) (render n).s :=
  fun n hn => (h n hn).s (List.all_eq_true.1 hs n hn)

theorem all_t {l : List Node} (h : ShowsAll l) : ∀ n ∈ l, Pr (shown n) (render n).t := fun n hn => (h n hn).t

theorem groupBy_shows {l : List Node} (h : ShowsAll l) (hs : l.all sayable = true) (rollup : Bool) :
    Pr ((if rollup then [str!"ROLLUP"] else []) ++ shownList l) (groupByStr (renderList l) rollup) := by
  have key : ∀ x, Laid (shownList l) x → Laid ((if rollup then [str!"ROLLUP"] else []) ++ shownList l)
      (if rollup then str!" ROLLUP" ++ x else x) := by
    intro x hx
    cases rollup with
    | true => exact Laid.append (Laid.lit (by decide)) hx
    | false => exact hx
  unfold groupByStr
  match l with
  | [] => simp only [renderList]; exact Pr.errBind
  | [a] =>
    simp only [renderList_one]
    refine Pr.step (h a (by simp)).t fun x hx => Pr.pureBind (Pr.pure (key _ ?_))
    rw [shownList_one]
    exact Laid.space hx
  | a :: b :: l =>
    rw [renderList, renderList]
    simp only
    rw [← renderList, ← renderList]
    refine Pr.bind fun xs hx => Pr.pureBind (Pr.pure (key _ ?_))
    exact (Laid.newline (comma (Laid.lit (by decide)) (each_map (all_sayable h hs) hx))).indent

theorem orderBy_shows {l : List Node} (h : ShowsAll l) (hs : l.all sayable = true) (brk : Bool) :
    Pr (shownList l) (orderByStr (renderList l) brk) := by
  match l with
  | [] => simp only [renderList]; exact .err
  | [a] =>
    simp only [renderList_one, shownList_one]
    exact Pr.step (h a (by simp)).t fun x hx => Pr.pure (Laid.space hx)
  | a :: b :: l =>
    unfold orderByStr
    rw [renderList, renderList]
    simp only
    rw [← renderList, ← renderList]
    refine Pr.bind fun xs hx => Pr.ite (fun _ => Pr.pure ?_) fun _ => Pr.pure ?_
    · exact (Laid.newline (comma (Laid.lit (by decide)) (each_map (all_sayable h hs) hx))).indent
    · exact (Laid.space (comma (Laid.lit (by decide)) (each_map (all_sayable h hs) hx)))

theorem orderItem_shows {v : Node} (h : Shows v (render v)) (hs : sayable v = true) (asc desc : Bool) :
    Pr (shown v ++ (if asc then [str!"ASC"] else if desc then [str!"DESC"] else [])) (orderItemStr (render v) asc desc) := by
  unfold orderItemStr
  refine Pr.step (h.s hs) fun x hx => Pr.pure ?_
  cases asc <;> cases desc
  · simpa using hx
  · exact hx.append (Laid.lit (by decide))
  · exact hx.append (Laid.lit (by decide))
  · exact hx.append (Laid.lit (by decide))

theorem func_shows {l : List Node} (h : ShowsAll l) (name : Str) :
    Pr ([name] ++ [str!"("] ++ shownList l ++ [str!")"]) (funcStr name (renderList l)) := by
  unfold funcStr
  refine Pr.bind fun xs hx => ?_
  have he := each_map (all_t h) hx
  have h1 := fun {sep} hs => comma (sep := sep) hs he
  have h2 := fun {sep} hs => comma_indent (sep := sep) hs he
  refine Pr.ite (fun _ => Pr.pure ?_) fun _ => Pr.pure ?_
  · have := h2 (sep := str!",\n ") (Laid.lit (by decide))
    simp only [List.append_assoc]
    laid
  · have := h1 (sep := str!", ") (Laid.lit (by decide))
    simp only [List.append_assoc]
    laid

theorem flag_laid {ws : List Str} {x : Str} (h : Laid ws x) (b : Bool) :
    Laid (if b then ws else []) (if b then x else []) := by
  cases b with
  | true => exact h
  | false => exact .nil

theorem count_shows {l : List Node} (h : ShowsAll l) (name : Str) (d : Bool) :
    Pr ([name] ++ [str!"("] ++ (if d then [str!"DISTINCT"] else []) ++ shownList l ++ [str!")"])
      (countStr name (renderList l) d) := by
  unfold countStr
  refine Pr.bind fun xs hx => Pr.pure ?_
  have h1 := comma (sep := str!", ") (Laid.lit (by decide)) (each_map (all_t h) hx)
  have h2 := flag_laid (x := str!"DISTINCT ") (ws := [str!"DISTINCT"]) (Laid.lit (by decide)) d
  simp only [List.append_assoc]
  laid

theorem arrayAgg_shows {c o : Node} (hc : Shows c (render c)) (ho : present o = true → Shows o (render o)) (name : Str)
    (d ig re : Bool) (lim : Option Int) (hl : lim ≠ some 0) :
    Pr ([name] ++ [str!"("] ++ (if d then [str!"DISTINCT"] else []) ++ shown c ++
      (if ig then [str!"IGNORE", str!"NULLS"] else if re then [str!"RESPECT", str!"NULLS"] else []) ++
      opt o ([str!"ORDER", str!"BY"] ++ shown o) ++
      bounded lim ++ [str!")"]) (arrayAggStr name (render c) d ig re (render o) lim) := by
  unfold arrayAggStr
  refine Pr.step hc.t fun x hx => ?_
  have h2 := flag_laid (x := str!"DISTINCT ") (ws := [str!"DISTINCT"]) (Laid.lit (by decide)) d
  have h3 : Laid (if ig then [str!"IGNORE", str!"NULLS"] else if re then [str!"RESPECT", str!"NULLS"] else [])
      (if ig then str!" IGNORE NULLS" else if re then str!" RESPECT NULLS" else []) := by
    cases ig <;> cases re <;> exact Laid.lit (by decide)
  cases lim with
  | none =>
    simp only [truthy_eq, opt, bounded, List.append_nil]
    cases hp : present o with
    | false =>
      refine Pr.pureBind (Pr.pure ?_)
      simp only [List.append_assoc, Bool.false_eq_true, if_false, List.nil_append]
      laid
    | true =>
      refine Pr.step (ho hp).flat fun y hy => Pr.pureBind (Pr.pure ?_)
      simp only [List.append_assoc, if_true]
      laid
  | some i =>
    have hi : i ≠ 0 := fun h => hl (by rw [h])
    simp only [truthy_eq, opt, bounded, if_neg hi]
    cases hp : present o with
    | false =>
      refine Pr.pureBind (Pr.pure ?_)
      simp only [List.append_assoc, Bool.false_eq_true, if_false, List.nil_append]
      laid
    | true =>
      refine Pr.step (ho hp).flat fun y hy => Pr.pureBind (Pr.pure ?_)
      simp only [List.append_assoc, if_true]
      laid

theorem analytics_shows {f o fr : Node} {l : List Node} (hf : Shows f (render f)) (hl : ShowsAll l)
    (ho : present o = true → Shows o (render o)) (hfr : present fr = true → Shows fr (render fr)) :
    Pr (shown f ++ [str!"OVER", str!"("] ++ (if l.isEmpty then [] else [str!"PARTITION", str!"BY"] ++ shownList l) ++
      opt o ([str!"ORDER", str!"BY"] ++ shown o) ++ opt fr (shown fr) ++ [str!")"])
      (analyticsStr (render f) (renderList l) (render o) (render fr)) := by
  unfold analyticsStr
  refine Pr.step hf.t fun x hx => ?_
  have key : ∀ y, Laid (shown f ++ [str!"OVER", str!"("] ++ (if l.isEmpty then [] else [str!"PARTITION", str!"BY"] ++
      shownList l)) y → Pr (shown f ++ [str!"OVER", str!"("] ++ (if l.isEmpty then [] else [str!"PARTITION", str!"BY"] ++
      shownList l) ++ opt o ([str!"ORDER", str!"BY"] ++ shown o) ++ opt fr (shown fr) ++ [str!")"])
      (if (render o).truthy then do
          let x ← (render o).t
          let s ← pure (y ++ str!"\n ORDER BY" ++ indentNL x)
          if (render fr).truthy then do
              let x ← (render fr).t
              let s ← pure ((if hasNL s = true then s ++ str!"\n " else s) ++ x)
              pure (s ++ if hasNL s = true then str!"\n)" else str!")")
            else do
              let s ← pure s
              pure (s ++ if hasNL s = true then str!"\n)" else str!")")
        else do
          let s ← pure y
          if (render fr).truthy then do
              let x ← (render fr).t
              let s ← pure ((if hasNL s = true then s ++ str!"\n " else s) ++ x)
              pure (s ++ if hasNL s = true then str!"\n)" else str!")")
            else do
              let s ← pure s
              pure (s ++ if hasNL s = true then str!"\n)" else str!")")) := by
    intro y hy
    generalize (shown f ++ [str!"OVER", str!"("] ++ (if l.isEmpty then [] else [str!"PARTITION", str!"BY"] ++
      shownList l)) = W at hy ⊢
    simp only [truthy_eq, opt]
    cases hp : present o <;> cases hq : present fr <;>
      simp only [if_true, Bool.false_eq_true, if_false, List.append_nil, List.append_assoc]
    · refine Pr.pureBind (Pr.pureBind (Pr.pure ?_))
      split <;> laid
    · refine Pr.pureBind (Pr.step (hfr hq).t fun z hz => Pr.pureBind (Pr.pure ?_))
      split <;> split <;> simp only [List.append_assoc] <;> laid
    · refine Pr.step (ho hp).t fun z hz => Pr.pureBind (Pr.pureBind (Pr.pure ?_))
      simp only [List.append_assoc]
      split <;> laid
    · refine Pr.step (ho hp).t fun z hz => Pr.pureBind (Pr.step (hfr hq).t fun u hu => Pr.pureBind (Pr.pure ?_))
      simp only [List.append_assoc]
      split <;> split <;> simp only [List.append_assoc] <;> laid
  match l with
  | [] =>
    simp only [renderList]
    refine key _ ?_
    simp only [List.isEmpty_nil, if_true, List.append_nil]
    laid
  | [a] =>
    simp only [renderList_one]
    refine Pr.step (hl a (by simp)).t fun z hz => key _ ?_
    rw [shownList_one]
    simp only [List.append_assoc, List.isEmpty_cons, Bool.false_eq_true, if_false]
    laid
  | a :: b :: l =>
    rw [renderList, renderList]
    simp only
    rw [← renderList, ← renderList]
    refine Pr.bind fun xs hxs => key _ ?_
    have := comma (sep := str!",\n  ") (Laid.lit (by decide)) (each_map (all_t hl) hxs)
    simp only [List.append_assoc, List.isEmpty_cons, Bool.false_eq_true, if_false]
    laid

theorem paren_shows {l : List Node} (h : ShowsAll l) (he : l.all ended = true) :
    Pr ([str!"("] ++ shownList l ++ [str!")"]) (parenStr (renderList l)) := by
  unfold parenStr
  refine Pr.bind fun xs hx => Pr.pure ?_
  have h1 := comma (sep := str!", ") (Laid.lit (by decide)) (each_map (fun n hn => ?_) hx)
  · simp only [List.append_assoc]
    laid
  · refine Pr.ite (fun _ => ?_) fun _ => (h n hn).t
    refine Pr.step ((h n hn).sub (List.all_eq_true.1 he n hn)) fun x hx => Pr.pure ?_
    have := Laid.append (Laid.newline hx) (Laid.lit (ws := []) (x := str!"\n") (by decide))
    simpa using this

theorem alias_shows {ws : List Str} {e : RStr} {a : Node} (he : Pr ws e) (ha : Shows a (render a)) (withAs : Bool) :
    Pr (ws ++ (if withAs then [str!"AS"] else []) ++ shown a) (aliasStr e (render a) withAs) := by
  unfold aliasStr
  refine Pr.step he fun x hx => Pr.step ha.t fun y hy => Pr.pure ?_
  cases withAs <;> simp only [List.append_assoc, if_true, Bool.false_eq_true, if_false, List.nil_append] <;> laid

theorem bool_shows {l r : Node} (hl : Shows l (render l)) (hr : Shows r (render r)) (ll : lone l = true) (lr : lone r = true)
    (type : Str) (brk : Bool) : Pr (shown l ++ [type] ++ shown r) (boolStr type (render l) (render r) brk) := by
  unfold boolStr
  have arg : ∀ {n : Node}, Shows n (render n) → lone n = true → Pr (shown n) (if (render n).isBoolc then (render n).nl
      else if (render n).isParen then do
        let y ← (render n).arg0
        return if hasNL y then str!"(\n " ++ indentNL y ++ str!"\n)" else str!"(" ++ y ++ str!")"
      else (render n).t) := by
    intro n h hn
    refine Pr.ite (fun _ => h.nl) fun _ => Pr.ite (fun _ => ?_) fun _ => h.t
    refine Pr.bind fun y hy => Pr.pure ?_
    obtain ⟨ws, hw, h2⟩ := h.arg0 hn y hy
    rw [hw]
    split <;> simp only [List.append_assoc] <;> laid
  refine Pr.step hl.t fun x hx => Pr.step hr.t fun y hy => Pr.ite (fun _ => Pr.pure ?_) fun _ => ?_
  · simp only [List.append_assoc]
    laid
  · refine Pr.step (arg hl ll) fun x hx => Pr.step (arg hr lr) fun y hy => Pr.pure ?_
    simp only [List.append_assoc]
    laid

theorem joinSide_shows {n : Node} (h : Shows n (render n)) (hs : side n = true) {lead : Str} (hg : Gap lead) :
    Pr (shown n) (joinSide lead (render n)) := by
  have key : ∀ (p : Peel) (ws : List Str), Laid ws p.text →
      Laid (List.replicate p.count str!"(" ++ ws ++ List.replicate p.count str!")")
        (if p.count > 0 then
          lead ++ List.replicate p.count '(' ++ (if p.isSelect then '\n' :: p.text else indentNL ('\n' :: p.text)) ++ str!"\n" ++
            List.replicate p.count ')'
        else lead ++ p.text) := by
    intro p ws h
    split
    · have h1 := Laid.replicate '(' p.count
      have h2 := Laid.replicate ')' p.count
      have h3 : Laid ws (if p.isSelect then '\n' :: p.text else indentNL ('\n' :: p.text)) := by
        split
        · exact h.newline
        · exact h.newline.indent
      simp only [List.append_assoc]
      refine Laid.gap hg ?_
      laid
    · have : p.count = 0 := by omega
      rw [this]
      simpa using Laid.gap hg h
  unfold joinSide
  cases ha : (render n).aliased with
  | none =>
    refine Pr.bind fun q hq => Pr.pureBind ?_
    obtain ⟨ws, hw, h1⟩ := h.peel (h.bare ha hs) q hq
    rw [hw]
    exact Pr.pure (key q ws h1)
  | some v =>
    obtain ⟨e, withAs, a⟩ := v
    obtain ⟨vs, us, hsn, hus, hvs⟩ := h.aliased e withAs a ha hs
    refine Pr.bind fun q hq => Pr.pureBind ?_
    obtain ⟨ws, hw, h1⟩ := hvs q hq
    rw [hsn, hw]
    have h2 := key q ws h1
    refine Pr.step hus fun x hx => Pr.pure ?_
    generalize List.replicate q.count str!"(" ++ ws ++ List.replicate q.count str!")" = W at h2 ⊢
    have h3 : Laid (if withAs then [str!"AS"] else []) (if withAs then str!" AS" else []) := flag_laid (Laid.lit (by decide)) _
    simp only [List.append_assoc] at h2 ⊢
    exact h2.append (h3.append (Laid.space hx))

theorem join_shows {l r on using_ : Node} (hl : Shows l (render l)) (hr : Shows r (render r)) (sl : side l = true)
    (sr : side r = true) (ho : present on = true → Shows on (render on))
    (hu : present using_ = true → Shows using_ (render using_)) (type : Str) :
    Pr (shown l ++ [E.upper type] ++ shown r ++
      (if present on then [str!"ON"] ++ shown on else opt using_ ([str!"USING"] ++ shown using_)))
      (joinStr type (E.upper type) (render l) (render r) (render on) (render using_)) := by
  unfold joinStr
  refine Pr.step (joinSide_shows hr sr (by intro c hc; simp at hc; simp [hc])) fun x hx => Pr.step (joinSide_shows hl sl Gap.nil) fun y hy => ?_
  have h1 : Laid [E.upper type] (if type = str!"," then str!"," else '\n' :: E.upper type) := by
    split
    · rename_i h
      rw [h, L.upper_ascii _ (by decide)]
      exact Laid.lit (by decide)
    · exact (Laid.one _).newline
  simp only [truthy_eq, opt]
  cases hp : present on with
  | true =>
    refine Pr.step (ho hp).t fun z hz => Pr.pure ?_
    simp only [List.append_assoc, if_true]
    laid
  | false =>
    cases hq : present using_ with
    | true =>
      refine Pr.step (hu hq).t fun z hz => Pr.pure ?_
      simp only [List.append_assoc, if_true, Bool.false_eq_true, if_false]
      laid
    | false =>
      refine Pr.pure ?_
      simp only [List.append_assoc, Bool.false_eq_true, if_false, List.append_nil]
      laid

theorem selectAll_shows {e : Node} {l : List Node} (he : Shows e (render e)) (hl : ShowsAll l) (kw : Str) :
    Pr (shown e ++ [kw] ++ [str!"("] ++ shownList l ++ [str!")"]) (selectAllStr (render e) kw (renderList l)) := by
  unfold selectAllStr
  refine Pr.step he.t fun x hx => ?_
  match l with
  | [] => simp only [renderList]; exact .err
  | [a] =>
    simp only [renderList_one, shownList_one]
    refine Pr.step (hl a (by simp)).t fun y hy => Pr.pure ?_
    simp only [List.append_assoc]
    laid
  | a :: b :: l =>
    rw [renderList, renderList]
    simp only
    rw [← renderList, ← renderList]
    refine Pr.bind fun xs hxs => Pr.pure ?_
    have := comma (sep := str!",\n ") (Laid.lit (by decide)) (each_map (all_t hl) hxs)
    simp only [List.append_assoc]
    laid

theorem when_shows {w t : Node} (hw : Shows w (render w)) (hc : condition w = true) (ht : Shows t (render t))
    (hs : sayable t = true) : Pr ([str!"WHEN"] ++ shown w ++ [str!"THEN"] ++ shown t) (whenStr (render w) (render t)) := by
  unfold whenStr
  refine Pr.bind fun x hx => ?_
  have h1 := hw.t x hx
  refine Pr.ite (fun hp => ?_) fun _ => Pr.ite (fun _ => ?_) fun _ => ?_
  · have hl : lone w = true := by
      cases e : lone w with
      | true => rfl
      | false =>
        have := hw.line hc e x hx
        simp [this] at hp
    refine Pr.bind fun y hy => ?_
    obtain ⟨ws, he, h2⟩ := hw.arg0 hl y hy
    have h2 := h2.indent2
    rw [he]
    refine Pr.pureBind (Pr.step (ht.s hs) fun z hz => Pr.pure ?_)
    simp only [List.append_assoc]
    laid
  · have h2 := h1.indent2
    refine Pr.pureBind (Pr.step (ht.s hs) fun z hz => Pr.pure ?_)
    simp only [List.append_assoc]
    laid
  · refine Pr.pureBind (Pr.step (ht.s hs) fun z hz => Pr.pure ?_)
    simp only [List.append_assoc]
    laid

theorem case_shows {o els : Node} {l : List Node} (ho : present o = true → Shows o (render o)) (hl : ShowsAll l)
    (he : present els = true → Shows els (render els)) :
    Pr ([str!"CASE"] ++ opt o (shown o) ++ shownSeq l ++ opt els ([str!"ELSE"] ++ shown els) ++ [str!"END"])
      (caseStr (render o) (renderList l) (render els)) := by
  unfold caseStr
  simp only [truthy_eq, opt]
  cases hp : present o <;> cases hq : present els <;>
    simp only [if_true, Bool.false_eq_true, if_false, List.append_nil, List.append_assoc]
  · refine Pr.pureBind (Pr.bind fun xs hxs => Pr.pureBind (Pr.pure ?_))
    have := seq (sep := str!"\n ") (Laid.lit (by decide)) (each_map (all_t hl) hxs)
    simp only [List.append_assoc]
    laid
  · refine Pr.pureBind (Pr.bind fun xs hxs => Pr.step (he hq).t fun y hy => Pr.pureBind (Pr.pure ?_))
    have := seq (sep := str!"\n ") (Laid.lit (by decide)) (each_map (all_t hl) hxs)
    simp only [List.append_assoc]
    laid
  · refine Pr.step (ho hp).t fun x hx => Pr.pureBind (Pr.bind fun xs hxs => Pr.pureBind (Pr.pure ?_))
    have := seq (sep := str!"\n ") (Laid.lit (by decide)) (each_map (all_t hl) hxs)
    simp only [List.append_assoc]
    laid
  · refine Pr.step (ho hp).t fun x hx => Pr.pureBind (Pr.bind fun xs hxs =>
      Pr.step (he hq).t fun y hy => Pr.pureBind (Pr.pure ?_))
    have := seq (sep := str!"\n ") (Laid.lit (by decide)) (each_map (all_t hl) hxs)
    simp only [List.append_assoc]
    laid

theorem optClause_shows {c : Node} (h : present c = true → Shows c (render c)) {ks : List Str} {k : Str} (hk : Laid ks k) :
    Pr (opt c (ks ++ shown c)) (optClause k (render c)) := by
  unfold optClause opt
  rw [truthy_eq]
  cases hp : present c with
  | false => exact Pr.pure .nil
  | true => exact Pr.step (h hp).t fun x hx => Pr.pure (hk.append hx)

theorem ite_bind {α β : Type} {c : Prop} [Decidable c] (x y : Except PyErr α) (f : α → Except PyErr β) :
    ((if c then x else y) >>= f) = if c then x >>= f else y >>= f := by split <;> rfl

theorem selectBody_eq (es on : List R) (all d : Bool) (f w g h o l off : R) : selectBody es all d on f w g h o l off =
    ((if all then pure str!"SELECT ALL"
      else if d then
        if on.isEmpty then pure str!"SELECT DISTINCT"
        else do
          let xs ← mapR R.s on
          pure (str!"SELECT DISTINCT ON (" ++ Str.join str!", " xs ++ str!")")
      else pure str!"SELECT" : RStr) >>= fun head =>
     ((match es with
      | [e] => do
        let x ← e.t
        pure (' ' :: x)
      | es => do
        let xs ← mapR R.t es
        pure (str!"\n " ++ Str.join str!",\n " (xs.map indentNL)) : RStr) >>= fun es =>
     ((if f.truthy then do
      let x ← f.fromPos
      pure (str!"\nFROM " ++ x)
    else pure [] : RStr) >>= fun f => (do
    let w ← optClause str!"\nWHERE" w
    let g ← optClause (str!"\nGROUP " ++ (if g.each then str!"EACH " else []) ++ str!"BY") g
    let h ← optClause str!"\nHAVING" h
    let o ← optClause str!"\nORDER BY" o
    let l ← optClause str!"\nLIMIT " l
    let off ← optClause str!"\nOFFSET " off
    return head ++ es ++ f ++ w ++ g ++ h ++ o ++ l ++ off)))) := by
  unfold selectBody
  rcases es with _ | ⟨e, _ | ⟨e', es⟩⟩ <;> simp only [ite_bind, pure_bind, bind_assoc]

theorem select_shows {es on : List Node} {f w g h o l off : Node} (hes : ShowsAll es) (hon : ShowsAll on)
    (son : on.all sayable = true) (hf : present f = true → Shows f (render f)) (sf : present f = true → source f = true)
    (hw : present w = true → Shows w (render w)) (hg : present g = true → Shows g (render g))
    (hh : present h = true → Shows h (render h)) (ho : present o = true → Shows o (render o))
    (hl : present l = true → Shows l (render l)) (hoff : present off = true → Shows off (render off)) (all distinct : Bool) :
    Pr ([str!"SELECT"] ++
      (if all then [str!"ALL"] else if distinct then [str!"DISTINCT"] ++
        (if on.isEmpty then [] else [str!"ON", str!"("] ++ shownList on ++ [str!")"]) else []) ++
      shownList es ++ opt f ([str!"FROM"] ++ shown f) ++ opt w ([str!"WHERE"] ++ shown w) ++
      opt g ([str!"GROUP"] ++ (if isEach g then [str!"EACH"] else []) ++ [str!"BY"] ++ shown g) ++
      opt h ([str!"HAVING"] ++ shown h) ++ opt o ([str!"ORDER", str!"BY"] ++ shown o) ++
      opt l ([str!"LIMIT"] ++ shown l) ++ opt off ([str!"OFFSET"] ++ shown off))
      (selectBody (renderList es) all distinct (renderList on) (render f) (render w) (render g) (render h) (render o)
        (render l) (render off)) := by
  have key1 : ∀ x y z : Str, Laid ([str!"SELECT"] ++
      (if all then [str!"ALL"] else if distinct then [str!"DISTINCT"] ++
        (if on.isEmpty then [] else [str!"ON", str!"("] ++ shownList on ++ [str!")"]) else [])) x →
      Laid (shownList es) y → Laid (opt f ([str!"FROM"] ++ shown f)) z →
      Pr ([str!"SELECT"] ++
      (if all then [str!"ALL"] else if distinct then [str!"DISTINCT"] ++
        (if on.isEmpty then [] else [str!"ON", str!"("] ++ shownList on ++ [str!")"]) else []) ++
      shownList es ++ opt f ([str!"FROM"] ++ shown f) ++ opt w ([str!"WHERE"] ++ shown w) ++
      opt g ([str!"GROUP"] ++ (if isEach g then [str!"EACH"] else []) ++ [str!"BY"] ++ shown g) ++
      opt h ([str!"HAVING"] ++ shown h) ++ opt o ([str!"ORDER", str!"BY"] ++ shown o) ++
      opt l ([str!"LIMIT"] ++ shown l) ++ opt off ([str!"OFFSET"] ++ shown off)) (do
        let w ← optClause str!"\nWHERE" (render w)
        let g ← optClause (str!"\nGROUP " ++ (if (render g).each then str!"EACH " else []) ++ str!"BY") (render g)
        let h ← optClause str!"\nHAVING" (render h)
        let o ← optClause str!"\nORDER BY" (render o)
        let l ← optClause str!"\nLIMIT " (render l)
        let off ← optClause str!"\nOFFSET " (render off)
        return x ++ y ++ z ++ w ++ g ++ h ++ o ++ l ++ off) := by
    intro x y z hx hy hz
    refine Pr.step (optClause_shows hw (ks := [str!"WHERE"]) (Laid.lit (by decide))) fun x1 h1 => ?_
    refine Pr.step (optClause_shows hg (ks := [str!"GROUP"] ++ (if isEach g then [str!"EACH"] else []) ++ [str!"BY"]) ?_)
      fun x2 h2 => ?_
    · rw [each_eq]
      exact ((Laid.lit (by decide)).append (flag_laid (Laid.lit (by decide)) _)).append (Laid.lit (by decide))
    refine Pr.step (optClause_shows hh (ks := [str!"HAVING"]) (Laid.lit (by decide))) fun x3 h3 => ?_
    refine Pr.step (optClause_shows ho (ks := [str!"ORDER", str!"BY"]) (Laid.lit (by decide))) fun x4 h4 => ?_
    refine Pr.step (optClause_shows hl (ks := [str!"LIMIT"]) (Laid.lit (by decide))) fun x5 h5 => ?_
    refine Pr.step (optClause_shows hoff (ks := [str!"OFFSET"]) (Laid.lit (by decide))) fun x6 h6 => ?_
    exact Pr.pure ((((((((hx.append hy).append hz).append h1).append h2).append h3).append h4).append h5).append h6)
  rw [selectBody_eq]
  refine Pr.step (vs := [str!"SELECT"] ++
      (if all then [str!"ALL"] else if distinct then [str!"DISTINCT"] ++
        (if on.isEmpty then [] else [str!"ON", str!"("] ++ shownList on ++ [str!")"]) else [])) ?_ fun x hx => ?_
  · cases all with
    | true => exact Pr.pure (Laid.lit (by simp only [if_true]; decide))
    | false =>
      cases distinct with
      | false => exact Pr.pure (Laid.lit (by simp only [Bool.false_eq_true, if_false]; decide))
      | true =>
        rw [show (renderList on).isEmpty = on.isEmpty by cases on <;> simp [renderList]]
        cases hb : on.isEmpty with
        | true => exact Pr.pure (Laid.lit (by simp only [Bool.false_eq_true, if_true, if_false]; decide))
        | false =>
          refine Pr.bind fun xs hxs => Pr.pure ?_
          have := comma (sep := str!", ") (Laid.lit (by decide)) (each_map (all_sayable hon son) hxs)
          simp only [List.append_assoc, Bool.false_eq_true, if_false, if_true]
          have h0 : Laid ([str!"SELECT"] ++ ([str!"DISTINCT"] ++ [str!"ON", str!"("])) str!"SELECT DISTINCT ON (" := Laid.lit (by decide)
          have := (h0.append this).append (Laid.lit (ws := [str!")"]) (x := str!")") (by decide))
          simpa only [List.append_assoc] using this
  refine Pr.step (vs := shownList es) ?_ fun y hy => ?_
  · match es with
    | [] =>
      simp only [renderList]
      exact Pr.bind fun xs hxs => by cases hxs; rw [shownList]; exact Pr.pure (Laid.lit (by decide))
    | [a] =>
      simp only [renderList_one, shownList_one]
      exact Pr.step (hes a (by simp)).t fun z hz => Pr.pure hz.space
    | a :: b :: es =>
      rw [renderList, renderList]
      simp only
      rw [← renderList, ← renderList]
      refine Pr.bind fun xs hxs => Pr.pure ?_
      exact Laid.gapl (by decide) (comma_indent (sep := str!",\n ") (Laid.lit (by decide)) (each_map (all_t hes) hxs))
  refine Pr.step (vs := opt f ([str!"FROM"] ++ shown f)) ?_ fun z hz => key1 x y z hx hy hz
  rw [truthy_eq]
  unfold opt
  cases hp : present f with
  | false => exact Pr.pure .nil
  | true => exact Pr.step ((hf hp).fromPos (sf hp)) fun x hx => Pr.pure (Laid.append (Laid.lit (by decide)) hx)

/-! ## All trees -/

theorem capital_line {v : Str} (h : v ∈ columnKeywords) : '\n' ∉ E.upper v := by
  have : ∀ w ∈ columnKeywords, w.all isAscii = true ∧ '\n' ∉ w.map Char.toUpper := by decide
  rw [L.upper_ascii v (this v h).1]
  exact (this v h).2

theorem named_line : ∀ (n : Node), named n = true → (render n).isSelect = false ∧
    ∀ x, (render n).t = .ok x → '\n' ∉ x
  | .column v, h => by
    refine ⟨by simp [render, R.ofStr], fun x hx => ?_⟩
    simp only [render, R.ofStr] at hx
    cases hx
    split
    · exact capital_line ‹_›
    · simpa [named] using h
  | .chained l r, h => by
    simp only [named, Bool.and_eq_true] at h
    refine ⟨by simp [render, R.ofStr], fun x hx => ?_⟩
    have h1 := (named_line l h.1).2
    have h2 := (named_line r h.2).2
    simp only [render, R.ofStr] at hx
    cases e1 : (render l).t with
    | error e => rw [e1] at hx; cases hx
    | ok y =>
      rw [e1] at hx
      cases e2 : (render r).t with
      | error e => rw [e2] at hx; cases hx
      | ok z =>
        rw [e2] at hx
        cases hx
        have a := h1 y e1
        have b := h2 z e2
        simp [a, b]

theorem paren_line {l : List Node} (h : l.all named = true) {x : Str} (hx : parenStr (renderList l) = .ok x) :
    hasNL x = false := by
  have key : ∀ (l : List Node), l.all named = true → ∀ xs, mapR (fun a => if a.isSelect then (do
      let x ← a.sub
      return '\n' :: x ++ str!"\n") else a.t) (renderList l) = .ok xs → '\n' ∉ Str.join str!", " xs := by
    intro l
    induction l with
    | nil =>
      intro _ xs hxs
      simp only [renderList, mapR] at hxs
      cases hxs
      simp [Str.join]
    | cons n l ih =>
      intro h xs hxs
      simp only [List.all_cons, Bool.and_eq_true] at h
      obtain ⟨h1, h2⟩ := named_line n h.1
      simp only [renderList, mapR, h1, Bool.false_eq_true, if_false] at hxs
      cases e1 : (render n).t with
      | error e => rw [e1] at hxs; cases hxs
      | ok y =>
        rw [e1] at hxs
        cases e2 : mapR (fun a => if a.isSelect then (do
            let x ← a.sub
            return '\n' :: x ++ str!"\n") else a.t) (renderList l) with
        | error e =>
          simp only [bind, Except.bind, pure, Except.pure, List.cons_append] at e2 hxs
          rw [e2] at hxs; cases hxs
        | ok ys =>
          have h3 := ih h.2 ys e2
          simp only [bind, Except.bind, pure, Except.pure, List.cons_append] at e2 hxs
          rw [e2] at hxs
          cases hxs
          have h4 := h2 y e1
          cases ys with
          | nil => simpa [Str.join] using h4
          | cons z ys => simp [Str.join, h4] at h3 ⊢; exact h3
  unfold parenStr at hx
  cases e : mapR (fun a => if a.isSelect then (do
      let x ← a.sub
      return '\n' :: x ++ str!"\n") else a.t) (renderList l) with
  | error e' => rw [e] at hx; cases hx
  | ok xs =>
    rw [e] at hx
    cases hx
    have := key l h xs e
    simp [hasNL, this]

theorem wholeList_iff {l : List Node} : wholeList l = true ↔ ∀ n ∈ l, whole n = true := by
  induction l with
  | nil => simp [wholeList]
  | cons n l ih => simp [wholeList, ih]

theorem or_imp {a b : Bool} (h : (!a || b) = true) (ha : a = true) : b = true := by simpa [ha] using h

theorem upper_lit {k : Str} (h : k.all isAscii = true) : E.upper k = k.map Char.toUpper := L.upper_ascii k h

theorem select_all {n : Node} {es on : List Node} {f w g h o l off : Node} {all distinct semi : Bool}
    (hn : n = .select es all distinct on f w g h o l off semi) (hes : ShowsAll es) (hon : ShowsAll on)
    (son : on.all sayable = true) (hf : present f = true → Shows f (render f)) (sf : present f = true → source f = true)
    (hw : present w = true → Shows w (render w)) (hg : present g = true → Shows g (render g))
    (hh : present h = true → Shows h (render h)) (ho : present o = true → Shows o (render o))
    (hl : present l = true → Shows l (render l)) (hoff : present off = true → Shows off (render off)) :
    Shows n (R.select n (renderList es) all distinct (renderList on) (render f) (render w) (render g) (render h) (render o)
      (render l) (render off) semi) := by
  have hb := select_shows hes hon son hf sf hw hg hh ho hl hoff all distinct
  subst hn
  generalize hW : [str!"SELECT"] ++ _ ++ _ ++ _ ++ _ ++ _ ++ _ ++ _ ++ _ ++ opt off _ = W at hb
  have hs : shown (.select es all distinct on f w g h o l off semi) = W ++ (if semi then [str!";"] else []) := by
    rw [← hW]; simp only [shown]
  have ht : Pr (W ++ (if semi then [str!";"] else [])) (do
      let x ← selectBody (renderList es) all distinct (renderList on) (render f) (render w) (render g) (render h) (render o)
        (render l) (render off)
      return if semi then x ++ str!";" else x) := by
    refine Pr.step hb fun x hx => Pr.pure ?_
    cases semi with
    | true => exact hx.append (Laid.lit (by decide))
    | false => simpa using hx
  have hsub : semi = false → Pr (W ++ (if semi then [str!";"] else [])) (do
      let x ← selectBody (renderList es) all distinct (renderList on) (render f) (render w) (render g) (render h) (render o)
        (render l) (render off)
      return ' ' :: indentNL x) := by
    intro h
    subst h
    refine Pr.step hb fun x hx => Pr.pure ?_
    simpa using hx.indent.space
  rw [← hs] at ht hsub
  exact {
    t := ht
    s := fun h => by simp [sayable] at h
    sub := fun h => hsub (by simpa [ended] using h)
    nl := .err
    flat := .err
    arg0 := fun _ _ hx => by cases hx
    line := fun _ h => by simp [lone] at h
    peel := fun h p hp => by
      obtain ⟨x, hx, rfl⟩ := map_ok hp
      exact ⟨_, by simp, hsub (by simpa [bracketed, ended] using h) x hx⟩
    bare := fun _ h => h
    aliased := fun _ _ _ h => by cases h
    fromPos := fun _ => ht }

theorem paren_all {args : List Node} (h : ShowsAll args) (he : args.all ended = true) :
    Shows (.paren args) (R.paren (renderList args)) := by
  have hs : shown (.paren args) = [str!"("] ++ shownList args ++ [str!")"] := by simp only [shown]
  have ht := paren_shows h he
  rw [← hs] at ht
  exact {
    t := ht
    s := fun _ => ht
    sub := fun _ => .err
    nl := .err
    flat := .err
    arg0 := fun hl x hx => by
      match args with
      | [] => simp only [R.paren, renderList] at hx; cases hx
      | [a] =>
        simp only [R.paren, renderList_one] at hx
        exact ⟨shown a, by rw [hs, shownList_one], (h a (by simp)).t x hx⟩
      | a :: b :: l => simp [lone] at hl
    line := fun hc hl x hx => by
      simp only [condition, hl, Bool.false_or] at hc
      exact paren_line hc hx
    peel := fun hb p hp => by
      match args with
      | [] => simp only [R.paren, renderList] at hp; cases hp
      | [a] =>
        simp only [R.paren, renderList_one] at hp
        obtain ⟨q, hq, rfl⟩ := map_ok hp
        obtain ⟨ws, hw, hl⟩ := (h a (by simp)).peel (by simpa [bracketed] using hb) q hq
        refine ⟨ws, ?_, hl⟩
        rw [hs, shownList_one, hw]
        rw [List.replicate_succ (a := str!"("), List.replicate_succ' (a := str!")")]
        simp
      | a :: b :: l => simp [bracketed] at hb
    bare := fun _ h => h
    aliased := fun _ _ _ h => by cases h
    fromPos := fun hl => by
      match args with
      | [] => simp only [R.paren, renderList]; exact .err
      | [a] =>
        have ha := h a (by simp)
        rw [hs, shownList_one]
        simp only [R.paren, renderList_one]
        have hi : Pr (shown a) (if (render a).isSelect then (render a).sub else do
            let x ← (render a).t
            pure (' ' :: indentNL x)) :=
          Pr.ite (fun _ => ha.sub (by simpa using he)) fun _ => Pr.step ha.t fun x hx => Pr.pure hx.indent.space
        have key : ∀ x, Laid (shown a) x → Laid ([str!"("] ++ shown a ++ [str!")"]) (str!"(\n" ++ x ++ str!"\n)") := by
          intro x hx
          exact ((Laid.lit (by decide)).append hx).append (Laid.lit (by decide))
        split
        · exact Pr.step (ha.sub (by simpa using he)) fun x hx => Pr.pure (key x hx)
        · exact Pr.step ha.t fun x hx => Pr.pureBind (Pr.pure (key _ hx.indent.space))
      | a :: b :: l => simp [source, lone] at hl }

theorem paren_of {n : Node} (h : (render n).isParen = true) : ∃ args, n = .paren args := by
  cases n with
  | paren args => exact ⟨args, rfl⟩
  | _ => simp [render, R.ofStr, R.ofTransform, R.alias, R.select] at h

theorem alias_all {e a : Node} (he : Shows e (render e)) (ha : Shows a (render a)) (withAs : Bool) :
    Shows (.alias e a withAs) (R.alias (render e) (render a) withAs) := by
  have hs : shown (.alias e a withAs) = shown e ++ (if withAs then [str!"AS"] else []) ++ shown a := by simp only [shown]
  have ht := alias_shows he.t ha withAs
  rw [← hs] at ht
  exact {
    t := ht
    s := fun _ => .err
    sub := fun _ => .err
    nl := .err
    flat := .err
    arg0 := fun _ _ hx => by cases hx
    line := fun _ h => by simp [lone] at h
    peel := fun _ p hp => by
      obtain ⟨x, hx, rfl⟩ := map_ok hp
      exact ⟨_, by simp, ht x hx⟩
    bare := fun h => by cases h
    aliased := fun e' w' a' h hside => by
      simp only [R.alias, Option.some.injEq, Prod.mk.injEq] at h
      obtain ⟨rfl, rfl, rfl⟩ := h
      simp only [side, Bool.and_eq_true] at hside
      exact ⟨shown e, shown a, hs, ha.s hside.2, fun p hp => he.peel hside.1 p hp⟩
    fromPos := fun hsrc => by
      simp only [R.alias]
      have h1 : Pr (shown e) (if (render e).isParen then (render e).fromPos else (render e).t) :=
        Pr.ite (fun h => he.fromPos (by
          obtain ⟨args, rfl⟩ := paren_of h
          exact hsrc)) fun _ => he.t
      have h2 : ∀ x, Laid (shown e) x → Pr (shown (.alias e a withAs)) (if x.isEmpty then aliasStr (render e).t (render a) withAs
          else aliasStr (.ok x) (render a) withAs) := by
        intro x hx
        refine Pr.ite (fun _ => ht) fun _ => ?_
        rw [hs]
        exact alias_shows (Pr.ok hx) ha withAs
      split
      · rename_i hp
        rw [if_pos hp] at h1
        exact Pr.step h1 h2
      · exact Pr.step he.t h2 }

mutual

theorem shows : ∀ n : Node, whole n = true → Shows n (render n)
  | .none, h => by simp [whole] at h
  | .raw s, _ => by
    simp only [render]
    exact .ofStr (by simp only [shown]; exact .ok (.one _)) rfl rfl
  | .select es all distinct on f w g h o l off semi, hw => by
    simp only [whole, Bool.and_eq_true] at hw
    obtain ⟨⟨⟨⟨⟨⟨⟨⟨⟨⟨h1, -⟩, h2⟩, h3⟩, h4⟩, h5⟩, h6⟩, h7⟩, h8⟩, h9⟩, h10⟩ := hw
    simp only [render]
    refine select_all rfl (showsAll es h1) (showsAll on h3) h2 (fun hp => shows f ?_) (fun hp => ?_)
      (fun hp => shows w (or_imp h5 hp)) (fun hp => shows g (or_imp h6 hp)) (fun hp => shows h (or_imp h7 hp))
      (fun hp => shows o (or_imp h8 hp)) (fun hp => shows l (or_imp h9 hp)) (fun hp => shows off (or_imp h10 hp))
    · exact ((Bool.and_eq_true _ _).mp (or_imp h4 hp)).2
    · exact ((Bool.and_eq_true _ _).mp (or_imp h4 hp)).1
  | .where_ v, h => by
    simp only [whole, Bool.and_eq_true] at h
    have hv := shows v h.2
    simp only [render]
    refine .ofTransform ?_ (fun h => by simp [sayable] at h) rfl rfl
    simp only [shown]
    exact clauseBody_shows hv h.1
  | .groupBy args rollup each, h => by
    simp only [whole, Bool.and_eq_true] at h
    have hg := groupBy_shows (showsAll args h.2) h.1 rollup
    simp only [render]
    have := Shows.ofStr (n := .groupBy args rollup each) (by simp only [shown]; exact hg) rfl rfl
    exact ⟨this.t, this.s, this.sub, this.nl, this.flat, this.arg0, this.line, this.peel, this.bare, this.aliased, this.fromPos⟩
  | .having v, h => by
    simp only [whole, Bool.and_eq_true] at h
    have hv := clauseBody_shows (shows v h.2) h.1
    simp only [render]
    exact .ofStr (by simp only [shown]; exact hv) rfl rfl
  | .on v, h => by
    simp only [whole, Bool.and_eq_true] at h
    have hv := clauseBody_shows (shows v h.2) h.1
    simp only [render]
    exact .ofStr (by simp only [shown]; exact hv) rfl rfl
  | .using_ v, h => by
    simp only [whole, Bool.and_eq_true] at h
    have hv := clauseBody_shows (shows v h.2) h.1
    simp only [render]
    exact .ofStr (by simp only [shown]; exact hv) rfl rfl
  | .orderBy args, h => by
    simp only [whole, Bool.and_eq_true] at h
    have h1 := orderBy_shows (showsAll args h.2) h.1 true
    have h2 := orderBy_shows (showsAll args h.2) h.1 false
    simp only [render]
    have := Shows.ofTransform (n := .orderBy args) (s := .error .attribute) (by simp only [shown]; exact h1) (fun _ => .err) rfl rfl
    exact ⟨this.t, this.s, this.sub, this.nl, by simp only [shown]; exact h2, this.arg0, this.line, this.peel, this.bare,
      this.aliased, this.fromPos⟩
  | .orderItem v asc desc, h => by
    simp only [whole, Bool.and_eq_true] at h
    have hv := orderItem_shows (shows v h.2) h.1 asc desc
    simp only [render]
    exact .ofStr (by simp only [shown]; exact hv) rfl rfl
  | .limit all v, h => by
    simp only [render]
    refine .ofStr ?_ rfl rfl
    simp only [shown]
    cases all with
    | true => exact .ok (.one _)
    | false =>
      simp only [whole, Bool.false_eq_true, if_false, Bool.and_eq_true] at h
      exact (shows v h.2).s h.1
  | .offset v, h => by
    simp only [whole, Bool.and_eq_true] at h
    have hv := (shows v h.2).s h.1
    simp only [render]
    exact .ofStr (by simp only [shown]; exact hv) rfl rfl
  | .withQuery name q, h => by
    simp only [whole, Bool.and_eq_true] at h
    have hq := (shows q h.2).sub h.1
    simp only [render]
    refine .ofStr ?_ rfl rfl
    simp only [shown]
    refine Pr.step hq fun x hx => Pr.pure ?_
    simp only [List.append_assoc]
    laid
  | .withStmt qs s, h => by
    simp only [whole, Bool.and_eq_true] at h
    have hq := showsAll qs h.1
    have hs := (shows s h.2).t
    simp only [render]
    refine .ofTransform ?_ (fun _ => .err) rfl rfl
    simp only [shown]
    refine Pr.bind fun xs hxs => Pr.step hs fun x hx => Pr.pure ?_
    have := comma (sep := str!",\n") (Laid.lit (by decide)) (each_map (all_t hq) hxs)
    simp only [List.append_assoc]
    laid
  | .func name args, h => by
    simp only [whole] at h
    have := func_shows (showsAll args h) (E.upper name)
    simp only [render]
    exact .ofStr (by simp only [shown]; exact this) rfl rfl
  | .cast c t, h => by
    simp only [whole, Bool.and_eq_true] at h
    have hc := (shows c h.1).t
    have ht := (shows t h.2).t
    simp only [render]
    refine .ofStr ?_ rfl rfl
    simp only [shown]
    refine Pr.step hc fun x hx => Pr.step ht fun y hy => Pr.pure ?_
    rw [upper_lit (k := str!"cast") (by decide)]
    simp only [List.append_assoc]
    refine Laid.append (a := [str!"CAST"]) (Laid.lit (by decide)) ?_
    refine Laid.append (a := [str!"("]) (Laid.lit (by decide)) ?_
    laid
  | .count args d, h => by
    simp only [whole] at h
    have := count_shows (showsAll args h) (E.upper str!"count") d
    simp only [render]
    refine .ofStr ?_ rfl rfl
    have hu : E.upper str!"count" = str!"COUNT" := by rw [upper_lit (by decide)]; rfl
    rw [hu] at this ⊢
    simp only [shown]
    simpa only [List.append_assoc, List.cons_append, List.nil_append] using this
  | .arrayAgg c d ig re o lim, h => by
    simp only [whole, Bool.and_eq_true] at h
    have := arrayAgg_shows (shows c h.1.1) (fun hp => shows o (or_imp h.1.2 hp)) (E.upper str!"array_agg") d ig re lim (by simpa using h.2)
    simp only [render]
    refine .ofStr ?_ rfl rfl
    have hu : E.upper str!"array_agg" = str!"ARRAY_AGG" := by rw [upper_lit (by decide)]; rfl
    rw [hu] at this ⊢
    simp only [shown]
    simpa only [List.append_assoc, List.cons_append, List.nil_append] using this
  | .filtered c w, h => by
    simp only [whole, Bool.and_eq_true] at h
    have hc := (shows c h.1).t
    have hw := (shows w h.2).t
    simp only [render]
    refine .ofStr ?_ rfl rfl
    simp only [shown]
    refine Pr.step hc fun x hx => Pr.step hw fun y hy => Pr.pure ?_
    simp only [List.append_assoc]
    laid
  | .analytics f part o fr, h => by
    simp only [whole, Bool.and_eq_true] at h
    have := analytics_shows (shows f h.1.1.1) (showsAll part h.1.1.2) (fun hp => shows o (or_imp h.1.2 hp))
      (fun hp => shows fr (or_imp h.2 hp))
    simp only [render]
    exact .ofStr (by simp only [shown]; exact this) rfl rfl
  | .frame u b, _ => by
    simp only [render]
    refine .ofStr ?_ rfl rfl
    simp only [shown]
    refine Pr.ok ?_
    simp only [List.append_assoc]
    laid
  | .column v, _ => by
    simp only [render]
    refine .ofStr ?_ rfl rfl
    simp only [shown]
    exact Pr.ok (Laid.one _)
  | .chained l r, h => by
    simp only [whole, Bool.and_eq_true] at h
    have hl := (shows l h.1).t
    have hr := (shows r h.2).t
    simp only [render]
    refine .ofStr ?_ rfl rfl
    simp only [shown]
    refine Pr.step hl fun x hx => Pr.step hr fun y hy => Pr.pure ?_
    simp only [List.append_assoc]
    laid
  | .type v, _ => by
    simp only [render]
    exact .ofStr (by simp only [shown]; exact .ok (.one _)) rfl rfl
  | .datePart part e, h => by
    simp only [whole] at h
    have he := (shows e h).t
    simp only [render]
    refine .ofStr ?_ rfl rfl
    simp only [shown]
    refine Pr.step he fun x hx => Pr.pure ?_
    simp only [List.append_assoc]
    laid
  | .string v q pre, _ => by
    simp only [render]
    refine .ofStr ?_ rfl rfl
    simp only [shown]
    refine Pr.ok ?_
    have h0 : Laid pre.toList (pre.getD []) := by
      cases pre with
      | none => exact .nil
      | some x => exact .one x
    exact ((h0.append (.one _)).append (.one _)).append (.one _)
  | .int i, _ => by
    simp only [render]
    exact .ofStr (by simp only [shown]; exact .ok (.one _)) rfl rfl
  | .float i, _ => by
    simp only [render]
    exact .ofStr (by simp only [shown]; exact .ok (.one _)) rfl rfl
  | .null, _ => by
    simp only [render]
    exact .ofStr (by simp only [shown]; exact .ok (.one _)) rfl rfl
  | .bool b, _ => by
    simp only [render]
    refine .ofStr ?_ rfl rfl
    simp only [shown]
    refine Pr.ok ?_
    rw [upper_lit (by cases b <;> decide)]
    cases b <;> exact .lit (by decide)
  | .paren args, h => by
    simp only [whole, Bool.and_eq_true] at h
    simp only [render]
    exact paren_all (showsAll args h.2) h.1
  | .array args, h => by
    simp only [whole] at h
    have ha := showsAll args h
    simp only [render]
    refine .ofStr ?_ rfl rfl
    simp only [shown]
    refine Pr.bind fun xs hxs => Pr.pure ?_
    have := comma (sep := str!", ") (Laid.lit (by decide)) (each_map (all_t ha) hxs)
    simp only [List.append_assoc]
    laid
  | .alias e a withAs, h => by
    simp only [whole, Bool.and_eq_true] at h
    simp only [render]
    exact alias_all (shows e h.1) (shows a h.2) withAs
  | .index e is, h => by
    simp only [whole, Bool.and_eq_true] at h
    have he := (shows e h.1).t
    have ha := showsAll is h.2
    simp only [render]
    refine .ofStr ?_ rfl rfl
    simp only [shown]
    refine Pr.step he fun x hx => Pr.bind fun xs hxs => Pr.pure ?_
    have := comma (sep := str!", ") (Laid.lit (by decide)) (each_map (all_t ha) hxs)
    simp only [List.append_assoc]
    laid
  | .arith op l r, h => by
    simp only [whole, Bool.and_eq_true] at h
    have hl := (shows l h.1.1.2).s h.1.1.1
    have hr := (shows r h.2).s h.1.2
    simp only [render]
    refine .ofStr ?_ rfl rfl
    simp only [shown]
    refine Pr.step hl fun x hx => Pr.step hr fun y hy => Pr.pure ?_
    simp only [List.append_assoc]
    laid
  | .bitwise l op r, h => by
    simp only [whole, Bool.and_eq_true] at h
    have hl := (shows l h.1).t
    have hr := (shows r h.2).t
    simp only [render]
    refine .ofStr ?_ rfl rfl
    simp only [shown]
    refine Pr.step hl fun x hx => Pr.step hr fun y hy => Pr.pure ?_
    simp only [List.append_assoc]
    laid
  | .table v sq, h => by
    simp only [whole] at h
    have hv := (shows v h).t
    simp only [render]
    have hs : Pr (shown (.table v sq)) (do
        let x ← (render v).t
        return if sq then str!"[" ++ x ++ str!"]" else x) := by
      simp only [shown]
      refine Pr.step hv fun x hx => Pr.pure ?_
      cases sq with
      | true =>
        simp only [if_true, List.append_assoc]
        laid
      | false => exact hx
    have := Shows.ofStr hs rfl rfl
    exact ⟨this.t, this.s, this.sub, this.nl, this.flat, this.arg0, this.line, this.peel, this.bare, this.aliased, this.fromPos⟩
  | .unnest v offset withAs a, h => by
    simp only [whole, Bool.and_eq_true] at h
    have hv := (shows v h.1.1).t
    have h2 := h.2
    simp only [render]
    refine .ofStr ?_ rfl rfl
    simp only [shown]
    refine Pr.step hv fun x hx => Pr.ite (fun ho => Pr.pure ?_) fun ho => Pr.pure ?_
    · rw [if_pos ho]
      cases a with
      | none =>
        cases withAs with
        | true => cases h2
        | false =>
          simp only [Option.getD_none, List.isEmpty_nil, Bool.false_eq_true, if_true, if_false, Option.toList_none, List.append_nil]
          laid
      | some a =>
        have ha : a.isEmpty = false := by simpa using h2
        simp only [Option.getD_some, ha, Bool.false_eq_true, if_false, Option.toList_some]
        have h3 : Laid (if withAs then [str!"AS"] else []) (if withAs then str!" AS" else []) := flag_laid (Laid.lit (by decide)) _
        simp only [List.append_assoc]
        refine hx.append (Laid.append (a := [str!"WITH", str!"OFFSET"]) (Laid.lit (by decide)) (h3.append ?_))
        exact (Laid.one _).space
    · rw [if_neg ho]
      simpa using hx
  | .join type l r on using_, h => by
    simp only [whole, Bool.and_eq_true] at h
    have := join_shows (shows l h.1.1.1.1.1.2) (shows r h.1.1.1.2) h.1.1.1.1.1.1 h.1.1.1.1.2
      (fun hp => shows on (or_imp h.1.1.2 hp)) (fun hp => shows using_ (or_imp h.1.2 hp)) type
    simp only [render]
    exact .ofStr (by simp only [shown]; exact this) rfl rfl
  | .combined op l r, h => by
    simp only [whole, Bool.and_eq_true] at h
    have hl := (shows l h.1).t
    have hr := (shows r h.2).t
    simp only [render]
    refine .ofStr ?_ rfl rfl
    simp only [shown]
    refine Pr.step hl fun x hx => Pr.step hr fun y hy => Pr.pure ?_
    have : Laid [] (if (render r).isTable then str!" " else str!"\n") := by split <;> exact Laid.lit (by decide)
    simp only [List.append_assoc]
    refine hx.append (Laid.newline ((Laid.one _).append (this.append hy)))
  | .cond l p r, h => by
    simp only [whole, Bool.and_eq_true] at h
    have hl := (shows l h.1).t
    have hr := (shows r h.2).t
    simp only [render]
    refine .ofStr ?_ rfl rfl
    simp only [shown]
    refine Pr.step hl fun x hx => Pr.step hr fun y hy => Pr.pure ?_
    simp only [List.append_assoc]
    laid
  | .boolc type l r, h => by
    simp only [whole, Bool.and_eq_true] at h
    have h1 := bool_shows (shows l h.1.1.2) (shows r h.2) h.1.1.1 h.1.2 (E.upper type) true
    have h2 := bool_shows (shows l h.1.1.2) (shows r h.2) h.1.1.1 h.1.2 (E.upper type) false
    simp only [render]
    have := Shows.ofTransform (n := .boolc type l r) (s := .error .attribute) (by simp only [shown]; exact h2) (fun _ => .err) rfl rfl
    exact ⟨this.t, this.s, this.sub, by simp only [shown]; exact h1, this.flat, this.arg0, this.line, this.peel, this.bare,
      this.aliased, this.fromPos⟩
  | .neg e, h => by
    simp only [whole] at h
    have he := (shows e h).t
    simp only [render]
    refine .ofStr ?_ rfl rfl
    simp only [shown]
    refine Pr.step he fun x hx => Pr.pure ?_
    have : Laid [] (if (render e).isParen then [] else str!" ") := by split <;> exact Laid.lit (by decide)
    exact ((Laid.one _).append this).append hx
  | .except_ e args, h => by
    simp only [whole, Bool.and_eq_true] at h
    have := selectAll_shows (shows e h.1) (showsAll args h.2) str!"EXCEPT"
    simp only [render]
    refine .ofStr ?_ rfl rfl
    simp only [shown]
    simpa only [List.append_assoc, List.cons_append, List.nil_append] using this
  | .replace e args, h => by
    simp only [whole, Bool.and_eq_true] at h
    have := selectAll_shows (shows e h.1) (showsAll args h.2) str!"REPLACE"
    simp only [render]
    refine .ofStr ?_ rfl rfl
    simp only [shown]
    simpa only [List.append_assoc, List.cons_append, List.nil_append] using this
  | .whenThen w t, h => by
    simp only [whole, Bool.and_eq_true] at h
    have := when_shows (shows w h.1.1.2) h.1.1.1 (shows t h.2) h.1.2
    simp only [render]
    exact .ofStr (by simp only [shown]; exact this) rfl rfl
  | .case operand whens els, h => by
    simp only [whole, Bool.and_eq_true] at h
    have := case_shows (fun hp => shows operand (or_imp h.1.1 hp)) (showsAll whens h.1.2) (fun hp => shows els (or_imp h.2 hp))
    simp only [render]
    exact .ofStr (by simp only [shown]; exact this) rfl rfl

theorem showsAll : ∀ l : List Node, wholeList l = true → ShowsAll l
  | [], _ => by intro n hn; cases hn
  | n :: l, h => by
    simp only [wholeList, Bool.and_eq_true] at h
    have h1 := shows n h.1
    have h2 := showsAll l h.2
    intro m hm
    rcases List.mem_cons.1 hm with rfl | hm
    · exact h1
    · exact h2 m hm

end

end SqlV.Shown
