import Verif.Model.Deferred
/-
The worker reads back what was written.  The list is described with symbolic places for the entries that are filled in later.
-/

variable {V F : Type}

/-- an element of the list before the places are filled in -/
inductive STok (V F : Type) where
  | t (x : WTok V F)
  | refSlot (n : Nat)
  | retSlot (n : Nat)
  | use (n : Nat)

/-- what the places are filled with: reference ids, whether they are used, whether the value is returned -/
structure Fill where
  pos : Nat → Nat
  used : Nat → Bool
  ret : Nat → Bool

def Fill.tok (f : Fill) : STok V F → WTok V F
  | .t x => x
  | .refSlot n => .num (if f.used n then (f.pos n : Int) else 0)
  | .retSlot n => .num (if f.ret n then 1 else 0)
  | .use n => .num (f.pos n)

/-- the nodes with places, in order -/
def slots : List (STok V F) → List Nat
  | [] => []
  | .retSlot n :: s => n :: slots s
  | _ :: s => slots s

theorem slots_append (a b : List (STok V F)) : slots (a ++ b) = slots a ++ slots b := by
  induction a with
  | nil => rfl
  | cons x a ih => cases x <;> simp [slots, ih]

theorem slots_plain (l : List (WTok V F)) : slots (l.map STok.t) = [] := by
  induction l with
  | nil => rfl
  | cons x l ih => simpa [slots] using ih

theorem mem_slots (s : List (STok V F)) (n : Nat) : n ∈ slots s ↔ STok.retSlot n ∈ s := by
  induction s with
  | nil => simp [slots]
  | cons x s ih => cases x <;> simp [slots, ih]

theorem map_plain (f : Fill) (l : List (WTok V F)) : (l.map STok.t).map f.tok = l := by
  induction l with
  | nil => rfl
  | cons x l ih => simp only [List.map_cons, ih, Fill.tok]

def Fill.Good (f : Fill) (K : List Nat) : Prop := (∀ n ∈ K, 0 < f.pos n) ∧ ∀ n ∈ K, ∀ m ∈ K, f.pos n = f.pos m → n = m

def Fill.Uses (f : Fill) (seg : List (STok V F)) : Prop := ∀ n, STok.use n ∈ seg → f.used n = true

/-- the worker has saved the values of the nodes of `K` that are referred to -/
def Knows (f : Fill) (val : Nat → V) (refs : List (Nat × V)) (K : List Nat) : Prop :=
  ∀ n ∈ K, f.used n = true → refs.lookup (f.pos n) = some (val n)

def Fill.yields (f : Fill) (val : Nat → V) (K : List Nat) : List V := (K.filter f.ret).map val

theorem yields_append (f : Fill) (val : Nat → V) (a b : List Nat) : f.yields val (a ++ b) = f.yields val a ++ f.yields val b := by
  simp [Fill.yields]

/-- the input of a node -/
def Def.input (val : Nat → V) (d : Def V F) : V :=
  match d.data with
  | .inl v => v
  | .inr j => val j

/-- the call of a node, given the values of the nodes -/
def Def.call (val : Nat → V) (d : Def V F) : Call V F := ⟨d.fn, d.input val, d.args.values val, d.names, d.kwargs.values val⟩

def callsOf (defs : List (Def V F)) (val : Nat → V) (vis : List Nat) : List (Call V F) := vis.filterMap fun n => defs[n]?.map (Def.call val)

theorem callsOf_append (defs : List (Def V F)) (val : Nat → V) (a b : List Nat) : callsOf defs val (a ++ b) = callsOf defs val a ++ callsOf defs val b := by
  simp [callsOf]

theorem Good.mono {f : Fill} {K K' : List Nat} (h : f.Good K') (hs : ∀ n ∈ K, n ∈ K') : f.Good K :=
  ⟨fun n hn => h.1 n (hs n hn), fun n hn m hm => h.2 n (hs n hn) m (hs m hm)⟩

theorem Uses.left {f : Fill} {a b : List (STok V F)} (h : f.Uses (a ++ b)) : f.Uses a := fun n hn => h n (List.mem_append_left _ hn)
theorem Uses.right {f : Fill} {a b : List (STok V F)} (h : f.Uses (a ++ b)) : f.Uses b := fun n hn => h n (List.mem_append_right _ hn)

section
variable (app : F → V → VArgs V → List String → VArgs V → V) (defs : List (Def V F)) (val : Nat → V)

/-- `seg` is read as the list of arguments `a`; the calls made are those of `vis` -/
def ArgsOK (K : List Nat) (a : Args V) (seg : List (STok V F)) (vis : List Nat) : Prop :=
  ∀ f : Fill, f.Good (K ++ slots seg) → f.Uses seg → ∀ R Y L, Knows f val R K →
    ∃ R', Knows f val R' (K ++ slots seg) ∧ ∀ rest m, seg.length < m →
      decList app m ⟨seg.map f.tok ++ rest, R, Y, L⟩ =
        some (a.values val, ⟨rest, R', Y ++ f.yields val (slots seg), L ++ callsOf defs val vis⟩)

/-- `seg` is read as the chain that ends in node `i` -/
def ChainOK (K : List Nat) (i : Nat) (seg : List (STok V F)) (vis : List Nat) : Prop :=
  ∀ f : Fill, f.Good (K ++ slots seg) → f.Uses seg → ∀ R Y L, Knows f val R K →
    ∃ R' k, Knows f val R' (K ++ slots seg) ∧ k ≤ seg.length ∧ ∀ rest m, seg.length < m →
      decChain app m ⟨seg.map f.tok ++ rest, R, Y, L⟩ =
        decLoop app (m - k) (val i) ⟨rest, R', Y ++ f.yields val (slots seg), L ++ callsOf defs val vis⟩

/-- `seg` is read as the call of node `i`, whose input is at hand -/
def CallOK (K : List Nat) (i : Nat) (d : Def V F) (seg : List (STok V F)) (vis : List Nat) : Prop :=
  0 < seg.length ∧ ∀ f : Fill, f.Good (K ++ slots seg) → f.Uses seg → ∀ R Y L, Knows f val R K →
    ∃ R', Knows f val R' (K ++ slots seg) ∧ ∀ rest m, seg.length < m →
      decLoop app m (d.input val) ⟨seg.map f.tok ++ rest, R, Y, L⟩ =
        decLoop app (m - 1) (val i) ⟨rest, R', Y ++ f.yields val (slots seg), L ++ callsOf defs val vis⟩

theorem argsOK_nil (K : List Nat) : ArgsOK app defs val K .nil [STok.t .done] [] := by
  intro f _ _ R Y L hR
  refine ⟨R, by simpa [slots] using hR, ?_⟩
  intro rest m hm
  obtain ⟨k, rfl⟩ : ∃ k, m = k + 1 := ⟨m - 1, by simp at hm; omega⟩
  simp [decList, Fill.tok, Args.values, slots, Fill.yields, callsOf]

theorem argsOK_obj (K : List Nat) (a a' : Args V) (v : V) (ha : a'.values val = .val v (a.values val)) (seg : List (STok V F)) (vis : List Nat)
    (h : ArgsOK app defs val K a seg vis) :
    ArgsOK app defs val K a' (STok.t (.obj v) :: seg) vis := by
  intro f hf hu R Y L hR
  obtain ⟨R', h1, h2⟩ := h f hf (fun n hn => hu n (List.mem_cons_of_mem _ hn)) R Y L hR
  refine ⟨R', h1, ?_⟩
  intro rest m hm
  simp only [List.length_cons] at hm
  obtain ⟨k, rfl⟩ : ∃ k, m = k + 1 := ⟨m - 1, by omega⟩
  have := h2 rest k (by omega)
  simp only [List.map_cons, List.cons_append, decList, Fill.tok]
  rw [this, ha]
  rfl

theorem argsOK_ref (K : List Nat) (a : Args V) (i : Nat) (hi : i ∈ K) (seg : List (STok V F)) (vis : List Nat)
    (h : ArgsOK app defs val K a seg vis) :
    ArgsOK app defs val K (.node i a) (STok.t .ref :: STok.use i :: seg) vis := by
  intro f hf hu R Y L hR
  obtain ⟨R', h1, h2⟩ := h f hf (fun n hn => hu n (List.mem_cons_of_mem _ (List.mem_cons_of_mem _ hn))) R Y L hR
  refine ⟨R', h1, ?_⟩
  intro rest m hm
  simp only [List.length_cons] at hm
  obtain ⟨k, rfl⟩ : ∃ k, m = k + 1 := ⟨m - 1, by omega⟩
  have := h2 rest k (by omega)
  have hl := hR i hi (hu i (by simp))
  simp only [List.map_cons, List.cons_append, decList, Fill.tok, Int.toNat_natCast, hl]
  rw [this]
  rfl

theorem decLoop_done (m : Nat) (hm : 0 < m) (v : V) (ts : List (WTok V F)) (R : List (Nat × V)) (Y : List V) (L : List (Call V F)) :
    decLoop app m v ⟨.done :: ts, R, Y, L⟩ = some (v, ⟨ts, R, Y, L⟩) := by
  obtain ⟨k, rfl⟩ : ∃ k, m = k + 1 := ⟨m - 1, by omega⟩
  simp [decLoop]

theorem argsOK_chain (K : List Nat) (a : Args V) (i : Nat) (segc seg : List (STok V F)) (visc vis : List Nat)
    (hc : ChainOK app defs val K i segc visc) (h : ArgsOK app defs val (K ++ slots segc) a seg vis) :
    ArgsOK app defs val K (.node i a) ((STok.t .chain :: segc) ++ (STok.t .done :: seg)) (visc ++ vis) := by
  intro f hf hu R Y L hR
  have hs : slots ((STok.t .chain :: segc) ++ (STok.t .done :: seg)) = slots segc ++ slots seg := by
    rw [slots_append]; rfl
  rw [hs] at hf ⊢
  obtain ⟨R1, k, h1, h2, h3⟩ := hc f (Good.mono hf (by intro n hn; simp at hn ⊢; rcases hn with hn | hn <;> simp [hn]))
    (fun n hn => hu n (by simp [hn])) R Y L hR
  obtain ⟨R2, h4, h5⟩ := h f (by rw [List.append_assoc]; exact hf) (fun n hn => hu n (by simp [hn])) R1
    (Y ++ f.yields val (slots segc)) (L ++ callsOf defs val visc) h1
  refine ⟨R2, by rw [← List.append_assoc]; exact h4, ?_⟩
  intro rest m hm
  simp only [List.length_append, List.length_cons] at hm
  obtain ⟨m, rfl⟩ : ∃ k, m = k + 1 := ⟨m - 1, by omega⟩
  simp only [List.map_cons, List.map_append, List.cons_append, List.append_assoc, decList, Fill.tok]
  rw [h3 _ m (by omega), decLoop_done app (m - k) (by omega)]
  simp only
  rw [h5 rest m (by omega)]
  simp only [Option.map_some, Args.values, yields_append, callsOf_append, List.append_assoc]

theorem argsOK_list (K : List Nat) (l a : Args V) (segl seg : List (STok V F)) (visl vis : List Nat)
    (hl : ArgsOK app defs val K l segl visl) (h : ArgsOK app defs val (K ++ slots segl) a seg vis) :
    ArgsOK app defs val K (.list l a) ((STok.t .list :: segl) ++ seg) (visl ++ vis) := by
  intro f hf hu R Y L hR
  have hs : slots ((STok.t .list :: segl) ++ seg) = slots segl ++ slots seg := by
    rw [slots_append]; rfl
  rw [hs] at hf ⊢
  obtain ⟨R1, h1, h3⟩ := hl f (Good.mono hf (by intro n hn; simp at hn ⊢; rcases hn with hn | hn <;> simp [hn]))
    (fun n hn => hu n (by simp [hn])) R Y L hR
  obtain ⟨R2, h4, h5⟩ := h f (by rw [List.append_assoc]; exact hf) (fun n hn => hu n (by simp [hn])) R1
    (Y ++ f.yields val (slots segl)) (L ++ callsOf defs val visl) h1
  refine ⟨R2, by rw [← List.append_assoc]; exact h4, ?_⟩
  intro rest m hm
  simp only [List.length_append, List.length_cons] at hm
  obtain ⟨m, rfl⟩ : ∃ k, m = k + 1 := ⟨m - 1, by omega⟩
  simp only [List.map_cons, List.map_append, List.cons_append, List.append_assoc, decList, Fill.tok]
  rw [h3 _ m (by omega)]
  simp only
  rw [h5 rest m (by omega)]
  simp only [Option.map_some, Args.values, yields_append, callsOf_append, List.append_assoc]

theorem chainOK_obj (K : List Nat) (i : Nat) : ChainOK app defs val K i [STok.t (.obj (val i))] [] := by
  intro f _ _ R Y L hR
  refine ⟨R, 1, by simpa [slots] using hR, by simp, ?_⟩
  intro rest m hm
  obtain ⟨m, rfl⟩ : ∃ k, m = k + 1 := ⟨m - 1, by simp at hm; omega⟩
  simp [decChain, Fill.tok, slots, Fill.yields, callsOf]

theorem chainOK_ref (K : List Nat) (i : Nat) (hi : i ∈ K) : ChainOK app defs val K i [STok.t .ref, STok.use i] [] := by
  intro f _ hu R Y L hR
  refine ⟨R, 1, by simpa [slots] using hR, by simp, ?_⟩
  intro rest m hm
  obtain ⟨m, rfl⟩ : ∃ k, m = k + 1 := ⟨m - 1, by simp at hm; omega⟩
  have hl := hR i hi (hu i (by simp))
  simp [decChain, Fill.tok, slots, Fill.yields, callsOf, hl]

/-- a chain whose input is a value -/
theorem chainOK_value (K : List Nat) (i : Nat) (d : Def V F) (v : V) (hd : d.data = .inl v) (seg : List (STok V F)) (vis : List Nat)
    (h : CallOK app defs val K i d seg vis) : ChainOK app defs val K i (STok.t (.obj v) :: seg) vis := by
  intro f hf hu R Y L hR
  obtain ⟨R', h1, h2⟩ := h.2 f hf (fun n hn => hu n (List.mem_cons_of_mem _ hn)) R Y L hR
  refine ⟨R', 2, h1, ?_, ?_⟩
  · have := h.1; simp only [List.length_cons]; omega
  intro rest m hm
  simp only [List.length_cons] at hm
  obtain ⟨m, rfl⟩ : ∃ k, m = k + 1 := ⟨m - 1, by omega⟩
  simp only [List.map_cons, List.cons_append, decChain, Fill.tok]
  have hin : d.input val = v := by simp [Def.input, hd]
  rw [← hin, h2 rest m (by omega)]
  congr 1

/-- a chain whose input is another chain -/
theorem chainOK_node (K : List Nat) (i j : Nat) (d : Def V F) (hd : d.data = .inr j) (segc seg : List (STok V F)) (visc vis : List Nat)
    (hc : ChainOK app defs val K j segc visc) (h : CallOK app defs val (K ++ slots segc) i d seg vis) :
    ChainOK app defs val K i (segc ++ seg) (visc ++ vis) := by
  intro f hf hu R Y L hR
  rw [slots_append] at hf ⊢
  obtain ⟨R1, k, h1, h2, h3⟩ := hc f (Good.mono hf (by intro n hn; simp at hn ⊢; rcases hn with hn | hn <;> simp [hn]))
    (Uses.left hu) R Y L hR
  obtain ⟨R2, h4, h5⟩ := h.2 f (by rw [List.append_assoc]; exact hf) (Uses.right hu) R1
    (Y ++ f.yields val (slots segc)) (L ++ callsOf defs val visc) h1
  refine ⟨R2, k + 1, by rw [← List.append_assoc]; exact h4, ?_, ?_⟩
  · have := h.1; rw [List.length_append]; omega
  intro rest m hm
  simp only [List.length_append] at hm
  rw [List.map_append, List.append_assoc, h3 _ m (by omega)]
  have hin : d.input val = val j := by simp [Def.input, hd]
  rw [← hin, h5 rest (m - k) (by omega)]
  simp only [yields_append, callsOf_append, List.append_assoc]
  congr 1

def PosOK (K : List Nat) (a : Args V) (seg : List (STok V F)) (vis : List Nat) : Prop :=
  ∀ f : Fill, f.Good (K ++ slots seg) → f.Uses seg → ∀ R Y L, Knows f val R K →
    ∃ R', Knows f val R' (K ++ slots seg) ∧ ∀ rest m, seg.length ≤ m →
      decPositional (decList app m) ⟨seg.map f.tok ++ rest, R, Y, L⟩ =
        some (a.values val, ⟨rest, R', Y ++ f.yields val (slots seg), L ++ callsOf defs val vis⟩)

def KwOK (K : List Nat) (names : List String) (a : Args V) (seg : List (STok V F)) (vis : List Nat) : Prop :=
  ∀ f : Fill, f.Good (K ++ slots seg) → f.Uses seg → ∀ R Y L, Knows f val R K →
    ∃ R', Knows f val R' (K ++ slots seg) ∧ ∀ rest m, seg.length ≤ m →
      decKeyword (decList app m) ⟨seg.map f.tok ++ rest, R, Y, L⟩ =
        some (names, a.values val, ⟨rest, R', Y ++ f.yields val (slots seg), L ++ callsOf defs val vis⟩)

omit app defs in
theorem popObjs_flat (a : Args V) (h : a.flat = true) (ts : List (WTok V F)) : popObjs a.length (flatToks a ++ ts) = some (a.values val, ts) := by
  induction a with
  | nil => rfl
  | val v rest ih =>
    simp only [Args.flat] at h
    simp [Args.length, flatToks, popObjs, ih h, Args.values]
  | node i rest ih => simp [Args.flat] at h
  | list l rest ih1 ih2 => simp [Args.flat] at h

omit app defs in
theorem popPairs_flat (names : List String) (a : Args V) (h : a.flat = true) (hn : names.length = a.length) (ts : List (WTok V F)) :
    popPairs names.length (pairToks names a ++ ts) = some (names, a.values val, ts) := by
  induction a generalizing names with
  | nil =>
    have : names = [] := by simpa [Args.length] using hn
    subst this
    simp [pairToks, popPairs, Args.values]
  | val v rest ih =>
    cases names with
    | nil => simp [Args.length] at hn
    | cons s names =>
      simp only [Args.flat] at h
      simp only [Args.length, List.length_cons, Nat.add_right_cancel_iff] at hn
      simp [pairToks, popPairs, ih names h hn, Args.values]
  | node i rest ih => simp [Args.flat] at h
  | list l rest ih1 ih2 => simp [Args.flat] at h

omit app defs val in
theorem popNames_names (names : List String) (ts : List (WTok V F)) : popNames names.length (names.map WTok.name ++ ts) = some (names, ts) := by
  induction names with
  | nil => rfl
  | cons s names ih => simp [popNames, ih]

omit app defs in
theorem values_length (a : Args V) : (a.values val).length = a.length := by
  induction a with
  | nil => rfl
  | val v rest ih => simp [Args.values, VArgs.length, Args.length, ih]
  | node i rest ih => simp [Args.values, VArgs.length, Args.length, ih]
  | list l rest ih1 ih2 => simp [Args.values, VArgs.length, Args.length, ih2]

theorem posOK_flat (K : List Nat) (a : Args V) (h : a.flat = true) :
    PosOK app defs val K a (STok.t (.num a.length) :: (flatToks a).map STok.t) [] := by
  intro f _ _ R Y L hR
  have hs : slots (STok.t (WTok.num (a.length : Int)) :: (flatToks a).map STok.t : List (STok V F)) = [] := by
    simp only [slots]; exact slots_plain _
  rw [hs]
  refine ⟨R, by simpa using hR, ?_⟩
  intro rest m hm
  rw [List.map_cons, map_plain]
  simp only [Fill.tok, decPositional, List.cons_append]
  rw [if_pos (by omega), Int.toNat_natCast, popObjs_flat val a h]
  simp [Fill.yields, callsOf]

theorem posOK_args (K : List Nat) (a : Args V) (seg : List (STok V F)) (vis : List Nat) (h : ArgsOK app defs val K a seg vis) :
    PosOK app defs val K a (STok.t (.num (-1)) :: seg) vis := by
  intro f hf hu R Y L hR
  obtain ⟨R', h1, h2⟩ := h f hf (fun n hn => hu n (List.mem_cons_of_mem _ hn)) R Y L hR
  refine ⟨R', h1, ?_⟩
  intro rest m hm
  simp only [List.length_cons] at hm
  simp only [List.map_cons, List.cons_append, Fill.tok, decPositional]
  rw [if_neg (by omega), h2 rest m (by omega)]
  rfl

theorem kwOK_flat (K : List Nat) (names : List String) (a : Args V) (h : a.flat = true) (hn : names.length = a.length) :
    KwOK app defs val K names a (STok.t (.num names.length) :: (pairToks names a).map STok.t) [] := by
  intro f _ _ R Y L hR
  have hs : slots (STok.t (WTok.num (names.length : Int)) :: (pairToks names a).map STok.t : List (STok V F)) = [] := by
    simp only [slots]; exact slots_plain _
  rw [hs]
  refine ⟨R, by simpa using hR, ?_⟩
  intro rest m hm
  rw [List.map_cons, map_plain]
  simp only [Fill.tok, decKeyword, List.cons_append]
  rw [if_pos (by omega), Int.toNat_natCast, popPairs_flat val names a h hn]
  simp [Fill.yields, callsOf]

theorem kwOK_args (K : List Nat) (names : List String) (a : Args V) (hn : names.length = a.length) (seg : List (STok V F)) (vis : List Nat)
    (h : ArgsOK app defs val K a seg vis) :
    KwOK app defs val K names a ((STok.t (.num (-1)) :: seg) ++ (names.map WTok.name).map STok.t) vis := by
  intro f hf hu R Y L hR
  have hs : slots ((STok.t (.num (-1)) :: seg) ++ (names.map WTok.name).map STok.t : List (STok V F)) = slots seg := by
    rw [slots_append, slots_plain, List.append_nil]; rfl
  rw [hs] at hf ⊢
  obtain ⟨R', h1, h2⟩ := h f hf (fun n hn => hu n (by simp [hn])) R Y L hR
  refine ⟨R', h1, ?_⟩
  intro rest m hm
  simp only [List.length_append, List.length_cons] at hm
  rw [List.map_append, map_plain, List.append_assoc]
  simp only [List.map_cons, List.cons_append, Fill.tok, decKeyword]
  rw [if_neg (by omega), h2 _ m (by omega)]
  simp only [values_length, ← hn, popNames_names]
  rfl

/-- the two last entries of a call -/
def tailSlots (i : Nat) (slotted : Bool) : List (STok V F) :=
  if slotted then [STok.refSlot i, STok.retSlot i] else [STok.t (.num 0), STok.t (.num 0)]

theorem callOK (K : List Nat) (i : Nat) (d : Def V F) (hd : defs[i]? = some d)
    (hval : val i = app d.fn (d.input val) (d.args.values val) d.names (d.kwargs.values val))
    (segP segK : List (STok V F)) (visP visK : List Nat) (hP : PosOK app defs val K d.args segP visP)
    (hK : KwOK app defs val (K ++ slots segP) d.names d.kwargs segK visK) (slotted : Bool) :
    CallOK app defs val K i d ((STok.t (.fn d.fn) :: segP) ++ (segK ++ tailSlots i slotted)) (visP ++ visK ++ [i]) := by
  refine ⟨by simp, ?_⟩
  intro f hf hu R Y L hR
  have hs : slots ((STok.t (.fn d.fn) :: segP) ++ (segK ++ tailSlots i slotted)) = slots segP ++ (slots segK ++ slots (tailSlots i slotted : List (STok V F))) := by
    rw [slots_append, slots_append]; rfl
  rw [hs] at hf ⊢
  obtain ⟨R1, h1, h2⟩ := hP f (Good.mono hf (by intro n hn; simp at hn ⊢; rcases hn with hn | hn <;> simp [hn]))
    (fun n hn => hu n (by simp [hn])) R Y L hR
  obtain ⟨R2, h3, h4⟩ := hK f (Good.mono hf (by intro n hn; simp at hn ⊢; rcases hn with hn | hn | hn <;> simp [hn]))
    (fun n hn => hu n (by simp [hn])) R1 (Y ++ f.yields val (slots segP)) (L ++ callsOf defs val visP) h1
  have hcall : callsOf defs val [i] = [⟨d.fn, d.input val, d.args.values val, d.names, d.kwargs.values val⟩] := by
    simp [callsOf, hd, Def.call]
  have hlast : ∃ R3, Knows f val R3 (K ++ (slots segP ++ (slots segK ++ slots (tailSlots i slotted : List (STok V F))))) ∧
      ∀ (rest : List (WTok V F)) Y L, decStore (val i) ⟨(tailSlots i slotted).map f.tok ++ rest, R2, Y, L⟩ =
        some ⟨rest, R3, Y ++ f.yields val (slots (tailSlots i slotted : List (STok V F))), L⟩ := by
    cases slotted with
    | false =>
      refine ⟨R2, ?_, ?_⟩
      · simpa [tailSlots, slots, List.append_assoc] using h3
      · intro rest Y L
        simp [tailSlots, Fill.tok, decStore, slots, Fill.yields]
    | true =>
      have hpos : 0 < f.pos i := hf.1 i (by simp [tailSlots, slots])
      cases hus : f.used i with
      | false =>
        refine ⟨R2, ?_, ?_⟩
        · intro n hn hun
          simp only [tailSlots, slots, if_true, List.mem_append, List.mem_cons, List.not_mem_nil, or_false] at hn
          by_cases hni : n = i
          · subst hni; rw [hus] at hun; simp at hun
          · exact h3 n (by simp only [List.mem_append]; rcases hn with h | h | h | h <;> simp_all) hun
        · intro rest Y L
          cases hr : f.ret i <;> simp [tailSlots, Fill.tok, decStore, slots, Fill.yields, hus, hr]
      | true =>
        refine ⟨(f.pos i, val i) :: R2, ?_, ?_⟩
        · intro n hn hun
          by_cases hni : n = i
          · subst hni; simp
          · have hne : f.pos n ≠ f.pos i := by
              intro h
              exact hni (hf.2 n hn i (by simp [tailSlots, slots]) h)
            rw [List.lookup_cons]
            have : (f.pos n == f.pos i) = false := by simpa using hne
            rw [this]
            simp only [tailSlots, slots, if_true, List.mem_append, List.mem_cons, List.not_mem_nil, or_false] at hn
            exact h3 n (by simp only [List.mem_append]; rcases hn with h | h | h | h <;> simp_all) hun
        · intro rest Y L
          cases hr : f.ret i <;> simp [tailSlots, Fill.tok, decStore, slots, Fill.yields, hus, hr] <;> omega
  obtain ⟨R3, h5, h6⟩ := hlast
  refine ⟨R3, h5, ?_⟩
  intro rest m hm
  simp only [List.length_append, List.length_cons] at hm
  obtain ⟨m, rfl⟩ : ∃ k, m = k + 1 := ⟨m - 1, by omega⟩
  simp only [List.map_append, List.map_cons, List.cons_append, List.append_assoc, Fill.tok, decLoop]
  rw [h2 _ m (by omega)]
  simp only
  rw [h4 _ m (by omega)]
  simp only
  rw [← hval, h6]
  simp only [Nat.add_sub_cancel, yields_append, callsOf_append, hcall, List.append_assoc]

end
