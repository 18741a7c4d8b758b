import Verif.Model.Replace
import Verif.Lemmas.Fillna
import Verif.Props.Convert

/-!
C96: `replace`, `round`, `Series.map` and `Series.apply`.
-/

variable {ι κ α : Type}

/-- **C96, what is compared with.** A cell of `df.replace(...)`: the value given for it (for its column), otherwise itself. -/
theorem C96_replace_meaning [DecidableEq κ] [DecidableEq α] (df : Frame ι κ α) (hwf : df.WF) (i j : Nat) (r : List α) (k : κ) (x : α)
    (hr : df.rows[i]? = some r) (hk : df.columns[j]? = some k) (hx : r[j]? = some x) :
    (∀ pairs, ((df.replace (.flat pairs)).rows[i]?.bind (·[j]?)) = some ((valueFor pairs x).getD x)) ∧
    (∀ d, ((df.replace (.named d)).rows[i]?.bind (·[j]?)) = some ((valueFor ((valueFor d k).getD []) x).getD x)) := by
  constructor
  · intro pairs
    simp [Frame.replace, Frame.mapCells, hr, hx, swapValue]
  · intro d
    have hi : i < df.index.length := by
      rw [← hwf.rows_len]; exact (List.getElem?_eq_some_iff.1 hr).1
    simp [Frame.replace, Frame.mapCellsL, hr, hx, hk, swapValue, List.getElem?_zipWith, List.getElem?_eq_getElem hi]

/-- **C96, `replace`.** For every frame however divided and every plan of execution, `df.replace(...)` is pandas' frame.

    Partial: replacing by the cell before looks at single blocks (`C96_pad_by_block`), and values given for columns need the
    names of the columns in the blocks (`C96_replace_stale`). -/
theorem C96_replace_partial [DecidableEq ι] [DecidableEq κ] [DecidableEq α] (cfg : Cfg) (dyn : Bool) (cpu : Nat) (arg : ReplaceArg κ α) (nan : α)
    (m : LFrame ι κ α) (df : Frame ι κ α) (h : m.Shows df) (hpad : ∀ olds limit, arg ≠ .pad olds limit)
    (hst : ∀ d, arg = .named d → m.defColumns = false) :
    ∃ m', m.replace cfg dyn cpu arg = some m' ∧ m'.Shows (df.replace arg) ∧ m'.toPandas nan = some (df.replace arg) := by
  cases arg with
  | flat pairs =>
    obtain ⟨m', e1, e2⟩ := mapCells_shows cfg dyn cpu (swapValue pairs) h
    exact ⟨m', e1, e2, (e2.observed nan).1⟩
  | named d =>
    obtain ⟨m', e1, e2⟩ := mapCellsL_shows cfg dyn cpu (fun _ k => swapValue ((valueFor d k).getD [])) h (Or.inr fun _ _ => rfl)
      (Or.inl (hst d rfl))
    exact ⟨m', e1, e2, (e2.observed nan).1⟩
  | pad olds limit => exact absurd rfl (hpad olds limit)

/-- **C96, `round`.** As for `replace`. -/
theorem C96_round_partial [DecidableEq ι] [DecidableEq κ] (cfg : Cfg) (dyn : Bool) (cpu : Nat) (rnd : Int → α → α) (arg : RoundArg κ) (nan : α)
    (m : LFrame ι κ α) (df : Frame ι κ α) (h : m.Shows df) (hst : ∀ d, arg = .named d → m.defColumns = false) :
    ∃ m', m.roundTo cfg dyn cpu rnd arg = some m' ∧ m'.Shows (df.roundTo rnd arg) ∧ m'.toPandas nan = some (df.roundTo rnd arg) := by
  cases arg with
  | all n =>
    obtain ⟨m', e1, e2⟩ := mapCells_shows cfg dyn cpu (rnd n) h
    exact ⟨m', e1, e2, (e2.observed nan).1⟩
  | named d =>
    obtain ⟨m', e1, e2⟩ := mapCellsL_shows cfg dyn cpu (fun _ k x => match valueFor d k with
      | some n => rnd n x
      | none => x) h (Or.inr fun _ _ => rfl) (Or.inl (hst d rfl))
    exact ⟨m', e1, e2, (e2.observed nan).1⟩

/-- a label that occurs once is found by either way of looking -/
theorem mapperGet_eq [DecidableEq α] (nan : α) (asInt : α → Option Int) (several : List α → α) (s : List (α × α)) (x : α)
    (hnd : (s.map (·.1)).Nodup) (hint : asInt x = none ∨ ∃ p ∈ s, (asInt p.1).isSome) :
    mapperGet nan asInt several s x = (valueFor s x).getD nan := by
  have key : ∀ s : List (α × α), (s.map (·.1)).Nodup →
      s.filter (fun p => decide (p.1 = x)) = ((s.find? fun p => decide (p.1 = x)).toList) := by
    intro s
    induction s with
    | nil => intro _; rfl
    | cons p s ih =>
      intro hs
      rw [List.map_cons, List.nodup_cons] at hs
      by_cases hp : p.1 = x
      · have : s.filter (fun p => decide (p.1 = x)) = [] := by
          rw [List.filter_eq_nil_iff]
          intro q hq he
          refine hs.1 (List.mem_map.2 ⟨q, hq, ?_⟩)
          rw [hp]; simpa using he
        simp [hp, this]
      · simp only [List.filter_cons, List.find?_cons, hp, decide_false]
        simpa using ih hs.2
  unfold mapperGet valueFor
  rw [key s hnd]
  cases s.find? fun p => decide (p.1 = x) with
  | some p => rfl
  | none =>
    simp only [Option.toList_none, Option.map_none, Option.getD_none]
    rcases hint with hi | ⟨p, hp, hi⟩
    · rw [hi]; simp
    · rw [if_neg]
      intro hall
      have := List.all_eq_true.1 hall p hp
      rw [Option.isNone_iff_eq_none] at this
      rw [this] at hi; cases hi

/-- **C96, `Series.map`.** For every Series however divided and every plan of execution, `s.map(arg)` is pandas' Series and raises exactly
    when pandas raises.

    Partial: not for dictionaries with `__missing__` (`C96_map_missing`), mapping Series with repeated labels
    (`C96_map_repeated`), and integers looked up in a Series without integer labels (`C96_map_position`). -/
theorem C96_map_partial [DecidableEq ι] [DecidableEq κ] [DecidableEq α] (cfg : Cfg) (dyn : Bool) (cpu : Nat) (nan : α) (isna : α → Bool)
    (asInt : α → Option Int) (several : List α → α) (ignoreNa : Bool) (arg : MapArg α) (m : LFrame ι κ α) (df : Frame ι κ α) (h : m.Shows df)
    (hmiss : ∀ d g, arg ≠ .dict d (some g))
    (hser : ∀ s, arg = .series s → (s.map (·.1)).Nodup ∧ ((∃ p ∈ s, (asInt p.1).isSome) ∨ ∀ a ∈ df.cellList, asInt a = none)) :
    (∀ m', m.mapSeries cfg dyn cpu nan isna asInt several ignoreNa arg = some m' →
      ∃ df', df.mapSeries nan isna ignoreNa arg = some df' ∧ m'.Shows df') ∧
    (m.mapSeries cfg dyn cpu nan isna asInt several ignoreNa arg).bind (·.toPandas nan) = df.mapSeries nan isna ignoreNa arg := by
  have hne : Nonempty α := ⟨nan⟩
  have hspec : df.mapSeries nan isna ignoreNa arg = df.mapCellsM fun x =>
      if !(isna x) || !ignoreNa then arg.modinValue nan asInt several x else some x := by
    have hc : ∀ x, arg.value nan x = arg.modinValue nan asInt several x → (if ignoreNa && isna x then some x else arg.value nan x)
        = if !(isna x) || !ignoreNa then arg.modinValue nan asInt several x else some x := by
      intro x hx
      rw [← hx]
      cases ignoreNa <;> cases isna x <;> rfl
    cases arg with
    | fn f => exact congrArg (fun g => df.mapCellsM g) (funext fun x => hc x rfl)
    | dict d g =>
      cases g with
      | none => exact congrArg (fun g => df.mapCellsM g) (funext fun x => hc x rfl)
      | some g => exact absurd rfl (hmiss d g)
    | series s =>
      obtain ⟨hnd, hint⟩ := hser s rfl
      unfold Frame.mapSeries
      simp only
      rw [if_pos (List.Nodup.sublist (List.Sublist.map _ List.filter_sublist) hnd)]
      unfold Frame.mapCellsM
      congr 1
      refine mapM_congr_mem fun r hr => mapM_congr_mem fun x hx => hc x ?_
      simp only [MapArg.value, MapArg.modinValue]
      rw [mapperGet_eq nan asInt several s x hnd]
      rcases hint with hi | hi
      · exact Or.inr hi
      · exact Or.inl (hi x (List.mem_flatten.2 ⟨r, hr, hx⟩))
  rw [hspec]
  exact C94_elementwise cfg dyn cpu nan _ m df h

/-- **C96, `Series.apply`.** For every Series (one column `k`) however divided and every plan of execution, `s.apply(f)` with a function of
    single values is pandas' Series, with its name, and raises exactly when pandas raises.

    Partial: not if the Series is empty (`C96_apply_empty`) or has its first row label as name (`C96_apply_name`). -/
theorem C96_apply_partial [DecidableEq ι] [DecidableEq κ] (cfg : Cfg) (dyn : Bool) (cpu : Nat) (nan : α) (same : κ → ι → Bool) (unnamed : κ)
    (f : α → Option α) (m : LFrame ι κ α) (df : Frame ι κ α) (h : m.Shows df) (k : κ) (hk : df.columns = [k]) (i : ι) (rest : List ι)
    (hi : df.index = i :: rest) (hname : same k i = false) :
    (∀ m', m.applySeries cfg dyn cpu same unnamed f = some m' → ∃ df', df.mapCellsM f = some df' ∧ m'.Shows df') ∧
    (m.applySeries cfg dyn cpu same unnamed f).bind (·.toPandas nan) = df.mapCellsM f := by
  have hne : Nonempty α := ⟨nan⟩
  obtain ⟨h1, h2⟩ := C94_elementwise cfg dyn cpu nan f m df h
  have e : m.applySeries cfg dyn cpu same unnamed f = m.mapBlocksM cfg dyn cpu (Frame.mapCellsM f) := by
    unfold LFrame.applySeries
    cases hr : m.mapBlocksM cfg dyn cpu (Frame.mapCellsM f) with
    | none => rfl
    | some r =>
      obtain ⟨df', e1, e2⟩ := h1 r hr
      have hc : df'.columns = [k] := by
        rw [((C94_meaning f df df').1.1 e1).2.1, hk]
      simp only [Option.bind_some, h.getIndex, hi, e2.getColumns, hc, hname]
      rfl
  rw [e]
  exact ⟨h1, h2⟩

namespace ReplaceDemo

abbrev V := Option Int

def df : Frame Int String V := ⟨[7, 8, 9], ["a", "b"], [[some 1, some 1], [some 2, none], [some 3, some 5]]⟩

/-- two row and two column partitions -/
def m : LFrame Int String V := ⟨⟨df.cut [2, 1] [1, 1], some df.index, some df.columns, none, none⟩, false, false⟩

theorem shows : m.Shows df :=
  ⟨⟨rfl, by decide⟩, ⟨df, [2, 1], [1, 1], ⟨rfl, by decide⟩, rfl, rfl,
    ⟨by decide, by decide, by decide, by decide⟩, rfl, Or.inl rfl, Or.inl rfl, by decide, by decide⟩, Or.inr rfl, Or.inr rfl⟩

-- `df.replace({"b": {1: 10, nan: 0}})` and `df.replace([1, 2], [2, 1])`
example : ((m.replace ⟨4, 1, 1⟩ true 8 (.named [("b", [(some 1, some 10), (none, some 0)])])).bind (·.toPandas none)).map (·.rows)
    = some [[some 1, some 10], [some 2, some 0], [some 3, some 5]] := by
  obtain ⟨m', e1, _, e3⟩ := C96_replace_partial ⟨4, 1, 1⟩ true 8 (.named [("b", [(some 1, some 10), (none, some 0)])]) none m df shows
    (by intro _ _ h; cases h) (by intro _ _; rfl)
  rw [e1, Option.bind_some, e3]
  decide

example : ((m.replace ⟨4, 1, 1⟩ false 8 (.flat [(some 1, some 2), (some 2, some 1)])).bind (·.toPandas none)).map (·.rows)
    = some [[some 2, some 2], [some 1, none], [some 3, some 5]] := by
  obtain ⟨m', e1, _, e3⟩ := C96_replace_partial ⟨4, 1, 1⟩ false 8 (.flat [(some 1, some 2), (some 2, some 1)]) none m df shows
    (by intro _ _ h; cases h) (by intro _ h; cases h)
  rw [e1, Option.bind_some, e3]
  decide

example : ((df.replace (.named [("b", [(some 1, some 10)])])).rows[0]?.bind (·[1]?)) = some (some 10) := by
  have h := (C96_replace_meaning df ⟨rfl, by decide⟩ 0 1 [some 1, some 1] "b" (some 1) rfl rfl rfl).2 [("b", [(some 1, some 10)])]
  rw [h]; decide

/-- rounding down to multiples of ten, as a stand-in -/
def rnd (n : Int) (v : V) : V := if n < 0 then v.map fun x => x / 10 * 10 else v

-- `df.round({"b": -1})`
example : ((m.roundTo ⟨4, 1, 1⟩ true 8 rnd (.named [("b", -1)])).bind (·.toPandas none)).map (·.rows)
    = some [[some 1, some 0], [some 2, none], [some 3, some 0]] := by
  obtain ⟨m', e1, _, e3⟩ := C96_round_partial ⟨4, 1, 1⟩ true 8 rnd (.named [("b", -1)]) none m df shows (by intro _ _; rfl)
  rw [e1, Option.bind_some, e3]
  decide

/-- a Series, by row partitions -/
def ser (index : List Int) (name : String) (rl : List Nat) (vs : List V) : LFrame Int String V :=
  ⟨⟨(Frame.mk index [name] (vs.map fun v => [v])).cut rl [1], some index, some [name], none, none⟩, false, false⟩

theorem ser_shows : (ser [7, 8, 9] "s" [2, 1] [some 1, none, some 3]).Shows ⟨[7, 8, 9], ["s"], [[some 1], [none], [some 3]]⟩ :=
  ⟨⟨rfl, by decide⟩, ⟨_, [2, 1], [1], ⟨rfl, by decide⟩, rfl, rfl,
    ⟨by decide, by decide, by decide, by decide⟩, rfl, Or.inl rfl, Or.inl rfl, by decide, by decide⟩, Or.inr rfl, Or.inr rfl⟩

-- `s.map(pd.Series([10, 30], index=[1, 3]))` and `s.map(f)` with a function that raises for missing values, ignored and not ignored
example : ((ser [7, 8, 9] "s" [2, 1] [some 1, none, some 3]).mapSeries ⟨4, 1, 1⟩ false 4 none (·.isNone) id (fun _ => none) false
    (.series [(some 1, some 10), (some 3, some 30)])).bind (·.toPandas none) = some ⟨[7, 8, 9], ["s"], [[some 10], [none], [some 30]]⟩ := by
  rw [(C96_map_partial ⟨4, 1, 1⟩ false 4 none (·.isNone) id (fun _ => none) false (.series [(some 1, some 10), (some 3, some 30)]) _ _ ser_shows
    (by intro _ _ h; cases h) (by intro s h; cases h; exact ⟨by decide, Or.inl ⟨(some 1, some 10), by simp, rfl⟩⟩)).2]
  decide

example : ((ser [7, 8, 9] "s" [2, 1] [some 1, none, some 3]).mapSeries ⟨4, 1, 1⟩ false 4 none (·.isNone) id (fun _ => none) true
      (.fn fun v => v.map some)).bind (·.toPandas none) = some ⟨[7, 8, 9], ["s"], [[some 1], [none], [some 3]]⟩ ∧
    ((ser [7, 8, 9] "s" [2, 1] [some 1, none, some 3]).mapSeries ⟨4, 1, 1⟩ false 4 none (·.isNone) id (fun _ => none) false
      (.fn fun v => v.map some)).bind (·.toPandas none) = none := by
  rw [(C96_map_partial ⟨4, 1, 1⟩ false 4 none (·.isNone) id (fun _ => none) true (.fn fun v => v.map some) _ _ ser_shows
    (by intro _ _ h; cases h) (by intro s h; cases h)).2,
    (C96_map_partial ⟨4, 1, 1⟩ false 4 none (·.isNone) id (fun _ => none) false (.fn fun v => v.map some) _ _ ser_shows
    (by intro _ _ h; cases h) (by intro s h; cases h)).2]
  decide

/-- no name equals a label -/
example : ((ser [7, 8, 9] "s" [2, 1] [some 1, none, some 3]).applySeries ⟨4, 1, 1⟩ false 4 (fun k i => decide (k = "eight" ∧ i = 8)) "unnamed"
    (fun v => some (v.map (· + 1)))).bind (·.toPandas none) = some ⟨[7, 8, 9], ["s"], [[some 2], [none], [some 4]]⟩ := by
  rw [(C96_apply_partial ⟨4, 1, 1⟩ false 4 none (fun k i => decide (k = "eight" ∧ i = 8)) "unnamed" (fun v => some (v.map (· + 1))) _ _ ser_shows
    "s" rfl 7 [8, 9] rfl rfl).2]
  decide

/-- **C96, violated.** `s.replace([1], method="pad")` of `[5, 1]`: pandas overwrites the 1 by the 5 before it; in a block of its own it has
    no cell before it and stays. -/
theorem C96_pad_by_block :
    ((ser [0, 1] "s" [1, 1] [some 5, some 1]).replace ⟨4, 1, 1⟩ false 4 (.pad [some 1] none)).bind (·.toPandas none)
      = some ⟨[0, 1], ["s"], [[some 5], [some 1]]⟩ ∧
    Frame.replace (.pad [some 1] none) (⟨[0, 1], ["s"], [[some 5], [some 1]]⟩ : Frame Int String V)
      = ⟨[0, 1], ["s"], [[some 5], [some 5]]⟩ := by decide +kernel

/-- **C96, violated.** After `df.columns = ["b"]` the blocks still have the old name: `df.replace({"b": {1: 2}})` and `df.round({"b": -1})` do
    nothing. -/
theorem C96_replace_stale :
    let m := (ser [0] "a" [1] [some 1]).setColumns ["b"]
    m.bind (·.toPandas none) = some ⟨[0], ["b"], [[some 1]]⟩ ∧
    (m.bind (·.replace ⟨4, 1, 1⟩ false 4 (.named [("b", [(some 1, some 2)])]))).bind (·.toPandas none) = some ⟨[0], ["b"], [[some 1]]⟩ ∧
    Frame.replace (.named [("b", [(some 1, some 2)])]) (⟨[0], ["b"], [[some 1]]⟩ : Frame Int String V) = ⟨[0], ["b"], [[some 2]]⟩ ∧
    (m.bind (·.roundTo ⟨4, 1, 1⟩ false 4 rnd (.named [("b", -1)]))).bind (·.toPandas none) = some ⟨[0], ["b"], [[some 1]]⟩ ∧
    Frame.roundTo rnd (.named [("b", -1)]) (⟨[0], ["b"], [[some 1]]⟩ : Frame Int String V) = ⟨[0], ["b"], [[some 0]]⟩ := by
  decide +kernel

/-- **C96, violated.** `s.map(defaultdict(int))`: pandas gives zeros, Modin gives missing values. -/
theorem C96_map_missing :
    ((ser [0] "s" [1] [some 5]).mapSeries ⟨4, 1, 1⟩ false 4 none (·.isNone) id (fun _ => none) false (.dict [] (some fun _ => some 0))).bind
      (·.toPandas none) = some ⟨[0], ["s"], [[none]]⟩ ∧
    Frame.mapSeries none (·.isNone) false (.dict [] (some fun _ => some 0)) (⟨[0], ["s"], [[some 5]]⟩ : Frame Int String V)
      = some ⟨[0], ["s"], [[some 0]]⟩ := by decide +kernel

/-- texts and integers (and the object a repeated label yields) -/
inductive W
  | int (n : Int) | text (s : String) | nan | several (n : Nat)
deriving DecidableEq

def W.asInt : W → Option Int
  | .int n => some n
  | _ => none

def wser (vs : List W) : LFrame Int String W :=
  ⟨⟨(Frame.mk [0] ["s"] (vs.map fun v => [v])).cut [vs.length] [1], some [0], some ["s"], none, none⟩, false, false⟩

/-- **C96, violated.** `pd.Series([0]).map(pd.Series(["x"], index=["a"]))`: no label is 0, so pandas gives a missing value; Modin takes 0 for a
    position and gives "x". -/
theorem C96_map_position :
    ((wser [.int 0]).mapSeries ⟨4, 1, 1⟩ false 4 .nan (fun v => decide (v = .nan)) W.asInt (fun l => .several l.length) false
      (.series [(.text "a", .text "x")])).bind (·.toPandas .nan) = some ⟨[0], ["s"], [[.text "x"]]⟩ ∧
    Frame.mapSeries .nan (fun v => decide (v = .nan)) false (.series [(.text "a", .text "x")]) (⟨[0], ["s"], [[.int 0]]⟩ : Frame Int String W)
      = some ⟨[0], ["s"], [[.nan]]⟩ := by decide +kernel

/-- **C96, violated.** A mapping Series with a repeated label makes pandas raise; Modin puts a Series of both values into the cell. -/
theorem C96_map_repeated :
    ((wser [.int 0]).mapSeries ⟨4, 1, 1⟩ false 4 .nan (fun v => decide (v = .nan)) W.asInt (fun l => .several l.length) false
      (.series [(.int 0, .text "x"), (.int 0, .text "y")])).bind (·.toPandas .nan) = some ⟨[0], ["s"], [[.several 2]]⟩ ∧
    Frame.mapSeries .nan (fun v => decide (v = .nan)) false (.series [(.int 0, .text "x"), (.int 0, .text "y")])
      (⟨[0], ["s"], [[.int 0]]⟩ : Frame Int String W) = none := by decide +kernel

/-- **C96, violated.** `df[0].apply(f)` for a column named 0 and the default row labels: the result has lost its name. -/
theorem C96_apply_name :
    ((ser [0, 1] "0" [2] [some 1, some 2]).applySeries ⟨4, 1, 1⟩ false 4 (fun k i => k == toString i) "unnamed" some).bind (·.toPandas none)
      = some ⟨[0, 1], ["unnamed"], [[some 1], [some 2]]⟩ ∧
    Frame.mapCellsM some (⟨[0, 1], ["0"], [[some 1], [some 2]]⟩ : Frame Int String V) = some ⟨[0, 1], ["0"], [[some 1], [some 2]]⟩ := by
  decide +kernel

/-- **C96, violated.** `s.apply(f)` of an empty Series raises in Modin and is empty in pandas. -/
theorem C96_apply_empty :
    (ser [] "s" [0] []).applySeries ⟨4, 1, 1⟩ false 4 (fun k i => k == toString i) "unnamed" some = none ∧
    Frame.mapCellsM some (⟨[], ["s"], []⟩ : Frame Int String V) = some ⟨[], ["s"], []⟩ := by
  decide +kernel

end ReplaceDemo
