import Verif.Source.Typing
import Verif.Source.Eval
/-!
# What the type checker accepts does not get stuck

A value has a type if it is of that form, and the numbers in it are in the range of their types.  An expression that
the checker gives a type evaluates to a value of that type, or mayReturn a value that may be returned, or panics.
-/

namespace Raki.Source

set_option linter.constructorNameAsVariable false

/-- The value has the type, where pointers have the given width. -/
inductive HasT (p : PtrWidth) : Val → T → Prop
  | u8 (s : Bool) {n : Nat} : n < 2 ^ 8 → HasT p (.u8 n) (.num .u8 s)
  | u16 (s : Bool) (x : BitVec 16) : HasT p (.u16 x) (.num .u16 s)
  | u32 (s : Bool) (x : BitVec 32) : HasT p (.u32 x) (.num .u32 s)
  | usize (s : Bool) {n : Nat} : n < 2 ^ p.bits → HasT p (.usize n) (.num .usize s)
  | i32 (s : Bool) {z : Int} : -2 ^ 31 ≤ z → z < 2 ^ 31 → HasT p (.i32 z) (.num .i32 s)
  | litNum (k : Kind) {n : Nat} : n < 2 ^ k.bits → HasT p (.lit n) (.num k false)
  | lit {n b : Nat} : n < 2 ^ b → HasT p (.lit n) (.int b)
  | bool (b : Bool) : HasT p (.bool b) .bool
  | str (s : String) : HasT p (.str s) .str
  | unit : HasT p .unit .unit
  | text (cs : List String) : HasT p (.wrote cs) .text
  | none (a : T) : HasT p (.variant .Option .None) (.option a)
  | some {a : T} {v : Val} : HasT p v a → HasT p (.variantOf .Option .Some v) (.option a)
  | ok {a : T} (e : T) {v : Val} : HasT p v a → HasT p (.variantOf .Result .Ok v) (.result a e)
  | err (a : T) {e : T} {v : Val} : HasT p v e → HasT p (.variantOf .Result .Err v) (.result a e)
  | variant {ty c : Id} {vs : List (Id × Option Id)} : variants ty = Option.some vs →
      assoc vs c = Option.some Option.none → HasT p (.variant ty c) (.named ty)
  | variantOf {ty c x : Id} {v : Val} {vs : List (Id × Option Id)} : variants ty = Option.some vs →
      assoc vs c = Option.some (Option.some x) → HasT p v (.named x) → HasT p (.variantOf ty c v) (.named ty)
  | struct {ty : Id} {fs : List (Id × Val)} {ds : List (Id × T)} : membersOf ty = Option.some ds →
      fs.map Prod.fst = ds.map Prod.fst → (∀ x v y t, ((x, v), (y, t)) ∈ fs.zip ds → HasT p v t) →
      HasT p (.struct ty fs) (.named ty)
  | array {a : T} {vs : List Val} : vs.length ≤ 2 ^ p.bits → (∀ v ∈ vs, HasT p v a) → HasT p (.array vs) (.array a)

/-- A value that comes out satisfies `q`, a value returned may be returned, and the code is not stuck. -/
def OutT (p : PtrWidth) (ret : T → Bool) {α : Type} (q : α → Prop) : Out α → Prop
  | .val a => q a
  | .ret v => ∃ t, HasT p v t ∧ ret t = true
  | .panic => True
  | .stuck => False

theorem OutT.bind {p : PtrWidth} {ret : T → Bool} {α β : Type} {q : α → Prop} {r : β → Prop} {x : Out α}
    {f : α → Out β} (hx : OutT p ret q x) (hf : ∀ a, q a → OutT p ret r (f a)) : OutT p ret r (x >>= f) := by
  cases x with
  | val a => exact hf a hx
  | ret v => exact hx
  | panic => trivial
  | stuck => exact hx

theorem OutT.mono {p : PtrWidth} {ret : T → Bool} {α : Type} {q r : α → Prop} {x : Out α}
    (h : OutT p (fun _ => false) q x) (hq : ∀ a, q a → r a) : OutT p ret r x := by
  cases x with
  | val a => exact hq a h
  | ret v => obtain ⟨_, _, h⟩ := h; cases h
  | panic => trivial
  | stuck => exact h

/-- Values of the given types. -/
def HaveT (p : PtrWidth) : List Val → List T → Prop
  | [], [] => True
  | v :: vs, a :: as => HasT p v a ∧ HaveT p vs as
  | _, _ => False

/-- The variables hold values of the given types. -/
def EnvT (p : PtrWidth) (ret : T → Bool) : TEnv → Env → Prop
  | [], [] => True
  | (x, a) :: Γ, (y, o) :: env => x = y ∧ OutT p ret (HasT p · a) o ∧ EnvT p ret Γ env
  | _, _ => False

/-- The functions that may be called have their types. -/
def CallT (p : PtrWidth) (sig : Sig) (c : Id → Id → List Val → Out Val) : Prop :=
  ∀ o f ps r, (ps, r) ∈ sig o f → ∀ args, HaveT p args (ps.map T.loose) →
    OutT p (fun _ => false) (HasT p · r) (c o f args)

theorem same_eq {x y : Id} (h : same x y = true) : x = y := of_decide_eq_true h

theorem Kind.same_eq {k l : Kind} (h : k.same l = true) : k = l := by cases k <;> cases l <;> first | rfl | cases h

theorem given_some {α : Type} {b : Bool} {a c : α} (h : given b a = some c) : b = true ∧ a = c := by
  cases b with
  | true => exact ⟨rfl, Option.some.inj h⟩
  | false => cases h

theorem pow_bits {n a b : Nat} (h : n < 2 ^ a) (hb : Nat.ble a b = true) : n < 2 ^ b :=
  Nat.lt_of_lt_of_le h (Nat.pow_le_pow_right (by decide) (Nat.le_of_ble_eq_true hb))

theorem ptr_le (p : PtrWidth) : 2 ^ 16 ≤ 2 ^ p.bits := by cases p <;> decide

/-! ## Types -/

theorem sub_sound {p : PtrWidth} (a : T) : ∀ {b : T} {v : Val}, HasT p v a → a.sub b = true → HasT p v b := by
  induction a with
  | never => intro b v h; cases h
  | int n =>
    intro b v h hs
    cases h with
    | lit hn =>
      cases b with
      | int c => exact .lit (pow_bits hn hs)
      | num k s =>
        cases s with
        | false => exact .litNum k (pow_bits hn hs)
        | true => cases hs
      | _ => cases hs
  | num k s =>
    intro b v h hs
    cases b with
    | num k' s' =>
      simp only [T.sub, Bool.and_eq_true] at hs
      cases Kind.same_eq hs.1
      cases h with
      | u8 _ hn => exact .u8 _ hn
      | u16 => exact .u16 _ _
      | u32 => exact .u32 _ _
      | usize _ hn => exact .usize _ hn
      | i32 _ h1 h2 => exact .i32 _ h1 h2
      | litNum _ hn =>
        cases s' with
        | false => exact .litNum _ hn
        | true => cases hs.2
    | _ => cases hs
  | named x =>
    intro b v h hs
    cases b with
    | named y => cases same_eq hs; exact h
    | _ => cases hs
  | option a ih =>
    intro b v h hs
    cases b with
    | option b =>
      cases h with
      | none => exact .none _
      | some h => exact .some (ih h hs)
    | _ => cases hs
  | result a e iha ihe =>
    intro b v h hs
    cases b with
    | result b f =>
      simp only [T.sub, Bool.and_eq_true] at hs
      cases h with
      | ok _ h => exact .ok _ (iha h hs.1)
      | err _ h => exact .err _ (ihe h hs.2)
    | _ => cases hs
  | array a ih =>
    intro b v h hs
    cases b with
    | array b =>
      cases h with
      | array hl h => exact .array hl fun v hv => ih (h v hv) hs
    | _ => cases hs
  | _ =>
    intro b v h hs
    cases b <;> first | exact h | cases hs

theorem join_sound {p : PtrWidth} (a : T) : ∀ {b c : T}, a.join b = some c →
    (∀ v, HasT p v a → HasT p v c) ∧ (∀ v, HasT p v b → HasT p v c) := by
  induction a with
  | never => intro b c h; cases h; exact ⟨fun v h => (by cases h), fun v h => h⟩
  | int n =>
    intro b c h
    cases b with
    | never => cases h; exact ⟨fun v h => h, fun v h => by cases h⟩
    | int m =>
      cases h
      refine ⟨fun v h => ?_, fun v h => ?_⟩ <;> cases h with
        | lit h => exact .lit (Nat.lt_of_lt_of_le h (Nat.pow_le_pow_right (by decide) (by omega)))
    | num k s =>
      obtain ⟨hb, rfl⟩ := given_some h
      refine ⟨fun v h => ?_, fun v h => ?_⟩
      · cases h with | lit h => exact .litNum k (pow_bits h hb)
      · exact sub_sound _ h (by cases k <;> cases s <;> rfl)
    | _ => cases h
  | num k s =>
    intro b c h
    cases b with
    | never => cases h; exact ⟨fun v h => h, fun v h => by cases h⟩
    | int m =>
      obtain ⟨hb, rfl⟩ := given_some h
      refine ⟨fun v h => ?_, fun v h => ?_⟩
      · exact sub_sound _ h (by cases k <;> cases s <;> rfl)
      · cases h with | lit h => exact .litNum k (pow_bits h hb)
    | num k' s' =>
      obtain ⟨hb, rfl⟩ := given_some h
      cases Kind.same_eq hb
      exact ⟨fun v h => sub_sound _ h (by cases k <;> cases s <;> cases s' <;> rfl),
        fun v h => sub_sound _ h (by cases k <;> cases s <;> cases s' <;> rfl)⟩
    | _ => cases h
  | named x =>
    intro b c h
    cases b with
    | never => cases h; exact ⟨fun v h => h, fun v h => by cases h⟩
    | named y =>
      obtain ⟨hb, rfl⟩ := given_some h
      cases same_eq hb
      exact ⟨fun v h => h, fun v h => h⟩
    | _ => cases h
  | option a ih =>
    intro b c h
    cases b with
    | never => cases h; exact ⟨fun v h => h, fun v h => by cases h⟩
    | option b =>
      simp only [T.join, Option.map_eq_some_iff] at h
      obtain ⟨d, hd, rfl⟩ := h
      refine ⟨fun v h => ?_, fun v h => ?_⟩ <;> cases h with
        | none => exact .none _
        | some h => first | exact .some ((ih hd).1 _ h) | exact .some ((ih hd).2 _ h)
    | _ => cases h
  | result a e iha ihe =>
    intro b c h
    cases b with
    | never => cases h; exact ⟨fun v h => h, fun v h => by cases h⟩
    | result b f =>
      simp only [T.join, Option.bind_eq_some_iff, Option.map_eq_some_iff] at h
      obtain ⟨d, hd, g, hg, rfl⟩ := h
      refine ⟨fun v h => ?_, fun v h => ?_⟩ <;> cases h with
        | ok _ h => first | exact .ok _ ((iha hd).1 _ h) | exact .ok _ ((iha hd).2 _ h)
        | err _ h => first | exact .err _ ((ihe hg).1 _ h) | exact .err _ ((ihe hg).2 _ h)
    | _ => cases h
  | array a ih =>
    intro b c h
    cases b with
    | never => cases h; exact ⟨fun v h => h, fun v h => by cases h⟩
    | array b =>
      simp only [T.join, Option.map_eq_some_iff] at h
      obtain ⟨d, hd, rfl⟩ := h
      refine ⟨fun v h => ?_, fun v h => ?_⟩ <;> cases h with
        | array hl h => first
          | exact .array hl fun v hv => (ih hd).1 _ (h v hv)
          | exact .array hl fun v hv => (ih hd).2 _ (h v hv)
    | _ => cases h
  | _ =>
    intro b c h
    cases b <;> first
      | (cases h; exact ⟨fun v h => h, fun v h => h⟩)
      | (cases h; exact ⟨fun v h => h, fun v h => by cases h⟩)
      | cases h

theorem joins_sound {p : PtrWidth} {as : List T} {c : T} (h : joins as = some c) {vs : List Val}
    (hv : HaveT p vs as) : ∀ v ∈ vs, HasT p v c := by
  induction as generalizing vs c with
  | nil => cases vs with
    | nil => nofun
    | cons => exact hv.elim
  | cons a as ih =>
    cases vs with
    | nil => nofun
    | cons w vs =>
      simp only [joins, Option.bind_eq_some_iff] at h
      obtain ⟨d, hd, h⟩ := h
      intro v hm
      rcases List.mem_cons.1 hm with rfl | hm
      · exact (join_sound _ h).1 _ hv.1
      · exact (join_sound _ h).2 _ (ih hd hv.2 v hm)

theorem become_sound {p : PtrWidth} (k : Kind) {t : Ty}
    (ht : ∀ v, (match v with | .lit _ => False | _ => True) → coerce t v = v)
    (hl : ∀ n, n < 2 ^ k.bits → HasT p (coerce t (.lit n)) (.num k true)) {a b : T} {v : Val} (h : HasT p v a)
    (hb : a.become k = some b) : HasT p (coerce t v) b := by
  cases a with
  | int n =>
    obtain ⟨hn, rfl⟩ := given_some hb
    cases h with | lit h => exact hl _ (pow_bits h hn)
  | num k' s =>
    obtain ⟨hn, rfl⟩ := given_some hb
    cases Kind.same_eq hn
    cases h with
    | litNum _ h => exact hl _ h
    | u8 _ h => rw [ht _ trivial]; exact .u8 _ h
    | u16 => rw [ht _ trivial]; exact .u16 _ _
    | u32 => rw [ht _ trivial]; exact .u32 _ _
    | usize _ h => rw [ht _ trivial]; exact .usize _ h
    | i32 _ h1 h2 => rw [ht _ trivial]; exact .i32 _ h1 h2
  | never => cases h
  | _ => cases hb

theorem coerce_sound {p : PtrWidth} (t : Ty) : ∀ {a b : T} {v : Val}, HasT p v a → T.coerce t a = some b →
    HasT p (coerce t v) b := by
  induction t with
  | u8 =>
    exact fun h hb => become_sound .u8 (by intro v hv; cases v <;> first | rfl | exact hv.elim) (fun n h => .u8 _ h)
      h hb
  | u16 =>
    exact fun h hb => become_sound .u16 (by intro v hv; cases v <;> first | rfl | exact hv.elim) (fun n h => .u16 _ _)
      h hb
  | u32 =>
    exact fun h hb => become_sound .u32 (by intro v hv; cases v <;> first | rfl | exact hv.elim) (fun n h => .u32 _ _)
      h hb
  | usize =>
    exact fun h hb => become_sound .usize (by intro v hv; cases v <;> first | rfl | exact hv.elim)
      (fun n h => .usize _ (Nat.lt_of_lt_of_le h (ptr_le p))) h hb
  | i32 =>
    refine fun h hb => become_sound .i32 (by intro v hv; cases v <;> first | rfl | exact hv.elim)
      (fun n h => .i32 _ ?_ ?_) h hb <;> simp only [Kind.bits] at h <;> omega
  | option t ih =>
    intro a b v h hb
    cases a with
    | option c =>
      simp only [T.coerce, Option.map_eq_some_iff] at hb
      obtain ⟨d, hd, rfl⟩ := hb
      cases h with
      | none => exact .none _
      | some h => exact .some (ih h hd)
    | never => cases h
    | _ => cases hb
  | result t ih =>
    intro a b v h hb
    cases a with
    | result c e =>
      simp only [T.coerce, Option.map_eq_some_iff] at hb
      obtain ⟨d, hd, rfl⟩ := hb
      cases h with
      | ok _ h => exact .ok _ (ih h hd)
      | err _ h => exact .err _ h
    | never => cases h
    | _ => cases hb
  | array t ih =>
    intro a b v h hb
    cases a with
    | array c =>
      simp only [T.coerce, Option.map_eq_some_iff] at hb
      obtain ⟨d, hd, rfl⟩ := hb
      cases h with
      | array hl h =>
        refine .array (by simpa using hl) fun w hw => ?_
        obtain ⟨u, hu, rfl⟩ := List.mem_map.1 hw
        exact ih (h u hu) hd
    | never => cases h
    | _ => cases hb
  | other =>
    intro a b v h hb
    cases hb
    cases v <;> exact h

theorem unsigned_sound {p : PtrWidth} {a : T} {v : Val} (h : HasT p v a) (ha : a.unsigned = true) :
    ∃ n, unsigned v = some n := by
  cases h <;> first | exact ⟨_, rfl⟩ | cases ha

theorem owner_sound {p : PtrWidth} {a : T} {v : Val} {o : Id} (h : HasT p v a) (ho : a.owner = some o) :
    typeOf v = some o := by
  cases h with
  | litNum => cases ho
  | lit => cases ho
  | u8 s => cases s <;> cases ho; rfl
  | u16 s => cases s <;> cases ho; rfl
  | u32 s => cases s <;> cases ho; rfl
  | usize s => cases s <;> cases ho; rfl
  | i32 s => cases s <;> cases ho; rfl
  | variant => cases ho; rfl
  | variantOf => cases ho; rfl
  | struct => cases ho; rfl
  | _ => cases ho

theorem subs_sound {p : PtrWidth} {vs : List Val} {as bs : List T} (h : HaveT p vs as) (hs : subs as bs = true) :
    HaveT p vs (bs.map T.loose) := by
  induction as generalizing vs bs with
  | nil =>
    cases bs with
    | nil => exact h
    | cons => cases hs
  | cons a as ih =>
    cases bs with
    | nil => cases hs
    | cons b bs =>
      cases vs with
      | nil => exact h.elim
      | cons v vs =>
        simp only [subs, Bool.and_eq_true] at hs
        exact ⟨sub_sound _ h.1 hs.1, ih h.2 hs.2⟩

theorem firstFit_mem {as : List T} {l : List (List T × T)} {r : T} (h : firstFit as l = some r) :
    ∃ ps, (ps, r) ∈ l ∧ subs as ps = true := by
  induction l with
  | nil => cases h
  | cons q l ih =>
    obtain ⟨ps, s⟩ := q
    simp only [firstFit] at h
    split at h
    · rename_i hs; cases h; exact ⟨ps, List.mem_cons_self, hs⟩
    · obtain ⟨qs, hq, hs⟩ := ih h; exact ⟨qs, List.mem_cons_of_mem _ hq, hs⟩

theorem callT_sound {p : PtrWidth} {sig : Sig} {c : Id → Id → List Val → Out Val} (hc : CallT p sig c) {o f : Id}
    {as : List T} {r : T} (h : callT sig o f as = some r) {vs : List Val} (hv : HaveT p vs as) (ret : T → Bool) :
    OutT p ret (HasT p · r) (c o f vs) := by
  obtain ⟨ps, hm, hs⟩ := firstFit_mem h
  exact (hc o f ps r hm vs (subs_sound hv hs)).mono fun _ h => h

/-! ## Operations -/

theorem ofRust_sound {p : PtrWidth} {ret : T → Bool} {α : Type} {k : α → Val} {t : T} {r : RustM α}
    (hk : ∀ a, r = .ok a → HasT p (k a) t) (hr : ∀ e, r ≠ .err e) : OutT p ret (HasT p · t) (Out.ofRust k r) := by
  cases r with
  | ok a => exact hk a rfl
  | err e => exact (hr e rfl).elim
  | panic => trivial

theorem bv_i32 {p : PtrWidth} (s : Bool) (x : BitVec 32) : HasT p (.i32 x.toInt) (.num .i32 s) := by
  have h1 := BitVec.le_toInt x
  have h2 := BitVec.toInt_lt (x := x)
  exact .i32 _ (by simpa using h1) (by simpa using h2)

theorem chk_i32 {p : PtrWidth} {z y : Int} (m : Mode)
    (h : (match m with | .checked => chkI32 z | .wrapping => Release.chkI32 z) = .ok y) :
    HasT p (.i32 y) (.num .i32 true) := by
  cases m with
  | checked =>
    simp only [chkI32] at h
    split at h
    · rename_i hz; cases h; exact .i32 _ hz.1 hz.2
    · cases h
  | wrapping => cases h; exact bv_i32 _ _

theorem litLike_known {p : PtrWidth} {k : Kind} {v w : Val} (hv : HasT p v (.num k true))
    (hw : HasT p w (.num k false)) : HasT p (litLike v w) (.num k true) ∧ litLike w v = v := by
  cases hv with
  | u8 _ h =>
    cases hw with
    | u8 _ h => exact ⟨.u8 _ h, rfl⟩
    | litNum _ h => exact ⟨.u8 _ h, rfl⟩
  | u16 =>
    cases hw with
    | u16 => exact ⟨.u16 _ _, rfl⟩
    | litNum _ h => exact ⟨.u16 _ _, rfl⟩
  | u32 =>
    cases hw with
    | u32 => exact ⟨.u32 _ _, rfl⟩
    | litNum _ h => exact ⟨.u32 _ _, rfl⟩
  | usize _ h =>
    cases hw with
    | usize _ h => exact ⟨.usize _ h, rfl⟩
    | litNum _ h => exact ⟨.usize _ (Nat.lt_of_lt_of_le h (ptr_le p)), rfl⟩
  | i32 _ h1 h2 =>
    cases hw with
    | i32 _ h1 h2 => exact ⟨.i32 _ h1 h2, rfl⟩
    | litNum _ h =>
      simp only [Kind.bits] at h
      exact ⟨.i32 _ (by omega) (by omega), rfl⟩

theorem num_loose {p : PtrWidth} {k : Kind} {s : Bool} {v : Val} (h : HasT p v (.num k s)) : HasT p v (.num k false) :=
  sub_sound _ h (by cases k <;> cases s <;> rfl)

theorem shared_sound {p : PtrWidth} {a b : T} {k : Kind} (h : shared a b = some k) {v w : Val} (hv : HasT p v a)
    (hw : HasT p w b) : HasT p (litLike w v) (.num k true) ∧ HasT p (litLike v w) (.num k true) := by
  have left {v w : Val} (hv : HasT p v (.num k true)) (hw : HasT p w (.num k false)) :
      HasT p (litLike w v) (.num k true) ∧ HasT p (litLike v w) (.num k true) := by
    obtain ⟨h1, h2⟩ := litLike_known hv hw
    exact ⟨h2.symm ▸ hv, h1⟩
  unfold shared at h
  split at h
  · rename_i k1 s1 k2 s2
    obtain ⟨hs, rfl⟩ := given_some h
    rw [Bool.and_eq_true] at hs
    cases Kind.same_eq hs.1
    cases s1 with
    | true => exact left hv (num_loose hw)
    | false =>
      cases s2 with
      | true => exact (left hw (num_loose hv)).symm
      | false => cases hs.2
  · obtain ⟨hs, rfl⟩ := given_some h
    cases hw with | lit hn => exact left hv (.litNum _ (pow_bits hn hs))
  · obtain ⟨hs, rfl⟩ := given_some h
    cases hv with | lit hn => exact (left hw (.litNum _ (pow_bits hn hs))).symm
  · cases h

theorem addU_ne {n : Nat} (x y : BitVec n) (m : Mode) (e : DecodingError) :
    (match m with | .checked => addU x y | .wrapping => Release.addU x y) ≠ .err e := by
  cases m <;> simp only [addU, Release.addU] <;> (try split) <;> nofun

theorem subU_ne {n : Nat} (x y : BitVec n) (m : Mode) (e : DecodingError) :
    (match m with | .checked => subU x y | .wrapping => Release.subU x y) ≠ .err e := by
  cases m <;> simp only [subU, Release.subU] <;> (try split) <;> nofun

theorem shlU_ne {n : Nat} (x : BitVec n) (k : Nat) (m : Mode) (e : DecodingError) :
    (match m with | .checked => shlU x k | .wrapping => Release.shlU x k) ≠ .err e := by
  cases m <;> simp only [shlU, Release.shlU] <;> (try split) <;> nofun

theorem shrU_ne {n : Nat} (x : BitVec n) (k : Nat) (m : Mode) (e : DecodingError) :
    (match m with | .checked => shrU x k | .wrapping => Release.shrU x k) ≠ .err e := by
  cases m <;> simp only [shrU, Release.shrU] <;> (try split) <;> nofun

theorem powU_ne (n b k : Nat) (m : Mode) (e : DecodingError) :
    (match m with | .checked => powU n b k | .wrapping => Release.powU n b k) ≠ .err e := by
  cases m <;> simp only [powU, Release.powU] <;> (try split) <;> nofun

theorem chkI32_ne (z : Int) (m : Mode) (e : DecodingError) :
    (match m with | .checked => chkI32 z | .wrapping => Release.chkI32 z) ≠ .err e := by
  cases m <;> simp only [chkI32, Release.chkI32] <;> (try split) <;> nofun

theorem sarI32_ne (z : Int) (k : Nat) (m : Mode) (e : DecodingError) :
    (match m with | .checked => sarI32 z k | .wrapping => Release.sarI32 z k) ≠ .err e := by
  cases m <;> simp only [sarI32, Release.sarI32] <;> (try split) <;> nofun

theorem sar_i32 {p : PtrWidth} {z y : Int} {k : Nat} (m : Mode)
    (h : (match m with | .checked => sarI32 z k | .wrapping => Release.sarI32 z k) = .ok y) :
    HasT p (.i32 y) (.num .i32 true) := by
  cases m with
  | checked =>
    simp only [sarI32] at h
    split at h
    · cases h; exact bv_i32 _ _
    · cases h
  | wrapping => cases h; exact bv_i32 _ _

theorem arith_sound {p : PtrWidth} {ret : T → Bool} (m : Mode) {op : BinOp} {k : Kind} {t : T}
    (h : arithT op k = some t) {v w : Val} (hv : HasT p v (.num k true)) (hw : HasT p w (.num k true)) :
    OutT p ret (HasT p · t) (arith m op v w) := by
  cases k <;> cases hv <;> cases hw <;> cases op <;> cases h <;> simp only [arith]
  all_goals first
    | exact .u16 _ _
    | exact .u32 _ _
    | exact .bool _
    | exact bv_i32 _ _
    | exact ofRust_sound (fun _ _ => .u16 _ _) (addU_ne _ _ m)
    | exact ofRust_sound (fun _ _ => .u32 _ _) (addU_ne _ _ m)
    | exact ofRust_sound (fun _ _ => .u16 _ _) (subU_ne _ _ m)
    | exact ofRust_sound (fun _ _ => .u32 _ _) (subU_ne _ _ m)
    | exact ofRust_sound (fun _ h => chk_i32 m h) (chkI32_ne _ m)
    | exact .usize _ (Nat.lt_of_le_of_lt Nat.and_le_left (by assumption))

theorem shift_sound {p : PtrWidth} {ret : T → Bool} (m : Mode) {op : BinOp} {a t : T}
    (h : shiftT op a = some t) {v : Val} (hv : HasT p v a) (k : Nat) :
    OutT p ret (HasT p · t) (shift m op v k) := by
  unfold shiftT at h
  split at h <;> cases h <;> cases hv <;> simp only [shift]
  · exact ofRust_sound (fun _ _ => .u16 _ _) (shlU_ne _ _ m)
  · exact ofRust_sound (fun _ _ => .u32 _ _) (shlU_ne _ _ m)
  · exact ofRust_sound (fun _ _ => .u16 _ _) (shrU_ne _ _ m)
  · exact ofRust_sound (fun _ _ => .u32 _ _) (shrU_ne _ _ m)
  · exact ofRust_sound (fun _ h => sar_i32 m h) (sarI32_ne _ _ m)

theorem binOp_sound {p : PtrWidth} {ret : T → Bool} (m : Mode) {op : BinOp} {a b t : T} (h : binT op a b = some t)
    {v w : Val} (hv : HasT p v a) (hw : HasT p w b) : OutT p ret (HasT p · t) (binOp m op v w) := by
  have hsh (hop : (match b.unsigned with | true => shiftT op a | false => none) = some t) :
      OutT p ret (HasT p · t) (match unsigned w with | some k => shift m op v k | none => .stuck) := by
    split at hop
    · rename_i hu
      obtain ⟨n, hn⟩ := unsigned_sound hw hu
      rw [hn]
      exact shift_sound m hop hv n
    · cases hop
  have har (hop : (shared a b).bind (arithT op) = some t) :
      OutT p ret (HasT p · t) (arith m op (litLike w v) (litLike v w)) := by
    obtain ⟨k, hk, hop⟩ := Option.bind_eq_some_iff.1 hop
    obtain ⟨h1, h2⟩ := shared_sound hk hv hw
    exact arith_sound m hop h1 h2
  cases op <;> first | exact hsh h | exact har h

theorem negVal_sound {p : PtrWidth} {ret : T → Bool} (m : Mode) {a t : T} (h : negT a = some t) {v : Val}
    (hv : HasT p v a) : OutT p ret (HasT p · t) (negVal m v) := by
  unfold negT at h
  split at h
  · obtain ⟨hb, rfl⟩ := given_some h
    cases hv with
    | lit hn =>
      have := pow_bits hn hb
      exact .i32 _ (by omega) (by omega)
  · cases h
    cases hv with
    | i32 => exact ofRust_sound (fun _ h => chk_i32 m h) (chkI32_ne _ m)
  · cases h

theorem castTo_sound {p : PtrWidth} {ret : T → Bool} {a t : T} {ty : Ty} (h : castT a ty = some t) {v : Val}
    (hv : HasT p v a) : OutT p ret (HasT p · t) (castTo p v ty) := by
  unfold castT at h
  split at h <;> cases h <;> cases hv
  · exact .usize _ (Nat.lt_of_lt_of_le (BitVec.isLt _) (ptr_le p))
  · exact .usize _ (Nat.mod_lt _ (by cases p <;> decide))
  · exact bv_i32 _ _

theorem inRange_sound {p : PtrWidth} {k : Nat → Val} {a : T} {bound n : Nat} (hk : n < bound → HasT p (k n) a) :
    HasT p (inRange k bound n) (.result a .unit) := by
  unfold inRange
  split
  · exact .ok _ (hk (by assumption))
  · exact .err _ .unit

theorem tryFromTo_sound {p : PtrWidth} {ret : T → Bool} {a t : T} {ty : Ty} (h : tryFromT ty a = some t) {v : Val}
    (hv : HasT p v a) : OutT p ret (HasT p · t) (tryFromTo ty v) := by
  unfold tryFromT at h
  split at h
  all_goals first
    | (rename_i hu
       obtain ⟨n, hn⟩ := unsigned_sound hv hu
       cases h
       simp only [tryFromTo, hn]
       first
         | exact inRange_sound fun h => .u8 _ h
         | exact inRange_sound fun _ => .u16 _ _
         | exact inRange_sound fun _ => .u32 _ _)
    | cases h

theorem fromTo_sound {p : PtrWidth} {ret : T → Bool} {a t : T} {ty : Ty} (h : fromT ty a = some t) {v : Val}
    (hv : HasT p v a) : OutT p ret (HasT p · t) (fromTo ty v) := by
  unfold fromT at h
  split at h <;> cases h
  cases hv
  exact .u32 _ _

theorem intoTo_sound {p : PtrWidth} {ret : T → Bool} {a t : T} (h : intoT a = some t) {v : Val}
    (hv : HasT p v a) : OutT p ret (HasT p · t) (intoTo v) := by
  unfold intoT at h
  split at h <;> cases h
  cases hv with
  | u8 _ hn => exact .usize _ (Nat.lt_of_lt_of_le (Nat.lt_of_lt_of_le hn (by decide)) (ptr_le p))

theorem power_sound {p : PtrWidth} {ret : T → Bool} (m : Mode) {a b t : T} (h : powT a (T.coerce .u32 b) = some t)
    {v w : Val} (hv : HasT p v a) (hw : HasT p w b) : OutT p ret (HasT p · t) (power m v (coerce .u32 w)) := by
  generalize hc : T.coerce .u32 b = c at h
  unfold powT at h
  split at h
  all_goals first
    | (cases h
       have hw := coerce_sound .u32 hw hc
       generalize coerce .u32 w = w' at hw
       cases hv <;> cases hw
       first
         | exact ofRust_sound (fun _ _ => .u16 _ _) (powU_ne _ _ _ m)
         | exact ofRust_sound (fun _ _ => .u32 _ _) (powU_ne _ _ _ m)
         | exact ofRust_sound (fun _ h => chk_i32 m h) (chkI32_ne _ m))
    | cases h

theorem unwrapVal_sound {p : PtrWidth} {ret : T → Bool} {a t : T} (h : unwrapT a = some t) {v : Val}
    (hv : HasT p v a) : OutT p ret (HasT p · t) (unwrapVal v) := by
  unfold unwrapT at h
  split at h
  · cases h
    cases hv with
    | none => trivial
    | some hv => exact hv
  · cases h
    cases hv with
    | ok _ hv => exact hv
    | err _ hv => trivial
  · cases h

theorem questionVal_sound {p : PtrWidth} {ret : T → Bool} {a t : T} (h : questionT ret a = some t) {v : Val}
    (hv : HasT p v a) : OutT p ret (HasT p · t) (questionVal v) := by
  unfold questionT at h
  split at h
  · obtain ⟨hr, rfl⟩ := given_some h
    cases hv with
    | ok _ hv => exact hv
    | err _ hv => exact ⟨_, .err _ hv, hr⟩
  · cases h

theorem payload_named {ty c : Id} {q : Option T} (h : payload (.named ty) ty c = some q) :
    ∃ vs y, variants ty = some vs ∧ assoc vs c = some y ∧ y.map T.named = q := by
  simp only [payload, same, decide_true] at h
  obtain ⟨vs, hv, h⟩ := Option.bind_eq_some_iff.1 h
  obtain ⟨y, hy, h⟩ := Option.map_eq_some_iff.1 h
  exact ⟨vs, y, hv, hy, h⟩

theorem variantT_sound {p : PtrWidth} {ty c : Id} {t : T} (h : variantT ty c = some t) :
    HasT p (.variant ty c) t := by
  unfold variantT at h
  split at h
  · cases h; exact .none _
  · split at h
    · rename_i hp
      cases h
      obtain ⟨vs, y, hv, hy, hq⟩ := payload_named hp
      cases y with
      | none => exact .variant hv hy
      | some y => cases hq
    · cases h

theorem variantOfT_sound {p : PtrWidth} {ty c : Id} {a t : T} (h : variantOfT ty c a = some t) {v : Val}
    (hv : HasT p v a) : HasT p (.variantOf ty c v) t := by
  unfold variantOfT at h
  split at h
  · cases h; exact .some hv
  · cases h; exact .ok _ hv
  · cases h; exact .err _ hv
  · split at h
    · rename_i hp
      obtain ⟨hs, rfl⟩ := given_some h
      obtain ⟨vs, y, hvs, hy, hq⟩ := payload_named hp
      cases y with
      | none => cases hq
      | some y => cases hq; exact .variantOf hvs hy (sub_sound _ hv hs)
    · cases h

theorem getField_sound {p : PtrWidth} {ret : T → Bool} {fs : List (Id × Val)} {ds : List (Id × T)}
    (hn : fs.map Prod.fst = ds.map Prod.fst) (h : ∀ x v y t, ((x, v), (y, t)) ∈ fs.zip ds → HasT p v t) {x : Id} {t : T}
    (hx : assoc ds x = some t) : OutT p ret (HasT p · t) (getField fs x) := by
  induction ds generalizing fs with
  | nil => cases hx
  | cons d ds ih =>
    obtain ⟨y, s⟩ := d
    cases fs with
    | nil => cases hn
    | cons f fs =>
      obtain ⟨z, v⟩ := f
      simp only [List.map_cons, List.cons.injEq] at hn
      obtain ⟨rfl, hn⟩ := hn
      simp only [assoc, same] at hx
      simp only [getField]
      split
      · rename_i he
        simp only [he, decide_true] at hx
        cases hx
        exact h z v z t (by rw [List.zip_cons_cons]; exact List.mem_cons_self)
      · rename_i he
        simp only [he, decide_false] at hx
        exact ih hn (fun x v y t hm => h x v y t (by rw [List.zip_cons_cons]; exact List.mem_cons_of_mem _ hm)) hx

theorem fieldsFit_sound {p : PtrWidth} {fs : List (Id × Val)} {gs ds : List (Id × T)}
    (hn : fs.map Prod.fst = gs.map Prod.fst) (h : ∀ x v y t, ((x, v), (y, t)) ∈ fs.zip gs → HasT p v t)
    (hf : fieldsFit gs ds = true) :
    fs.map Prod.fst = ds.map Prod.fst ∧ ∀ x v y t, ((x, v), (y, t)) ∈ fs.zip ds → HasT p v t := by
  induction ds generalizing fs gs with
  | nil =>
    cases gs with
    | nil => exact ⟨hn, h⟩
    | cons => cases hf
  | cons d ds ih =>
    obtain ⟨y, s⟩ := d
    cases gs with
    | nil => cases hf
    | cons g gs =>
      obtain ⟨z, a⟩ := g
      cases fs with
      | nil => cases hn
      | cons f fs =>
        obtain ⟨w, v⟩ := f
        simp only [fieldsFit, Bool.and_eq_true] at hf
        simp only [List.map_cons, List.cons.injEq] at hn
        obtain ⟨rfl, hn⟩ := hn
        cases same_eq hf.1.1
        obtain ⟨h1, h2⟩ := ih hn (fun x v y t hm => h x v y t (by rw [List.zip_cons_cons]; exact List.mem_cons_of_mem _ hm))
          hf.2
        refine ⟨by simp [h1], fun x u y t hm => ?_⟩
        rw [List.zip_cons_cons] at hm
        rcases List.mem_cons.1 hm with e | hm
        · cases e
          exact sub_sound _ (h _ _ _ _ (by rw [List.zip_cons_cons]; exact List.mem_cons_self)) hf.1.2
        · exact h2 x u y t hm

/-! ## Variables -/

theorem EnvT.cons {p : PtrWidth} {ret : T → Bool} {Γ : TEnv} {env : Env} {x : Id} {a : T} {o : Out Val}
    (ho : OutT p ret (HasT p · a) o) (h : EnvT p ret Γ env) : EnvT p ret ((x, a) :: Γ) ((x, o) :: env) := ⟨rfl, ho, h⟩

theorem EnvT.get {p : PtrWidth} {ret : T → Bool} {Γ : TEnv} {env : Env} (h : EnvT p ret Γ env) {x : Id} {a : T}
    (hx : assoc Γ x = some a) : OutT p ret (HasT p · a) (Env.get env x) := by
  induction Γ generalizing env with
  | nil => cases hx
  | cons g Γ ih =>
    obtain ⟨y, b⟩ := g
    cases env with
    | nil => exact h.elim
    | cons o env =>
      obtain ⟨z, o⟩ := o
      obtain ⟨rfl, ho, h⟩ := h
      simp only [assoc, same] at hx
      simp only [Env.get]
      split
      · rename_i he
        simp only [he, decide_true] at hx
        cases hx
        exact ho
      · rename_i he
        simp only [he, decide_false] at hx
        exact ih h hx

theorem EnvT.set {p : PtrWidth} {ret : T → Bool} {Γ : TEnv} {env : Env} (h : EnvT p ret Γ env) {x : Id} {a : T}
    (hx : assoc Γ x = some a) {v : Val} (hv : HasT p v a) : EnvT p ret Γ (Env.set env x v) := by
  induction Γ generalizing env with
  | nil => cases hx
  | cons g Γ ih =>
    obtain ⟨y, b⟩ := g
    cases env with
    | nil => exact h.elim
    | cons o env =>
      obtain ⟨z, o⟩ := o
      obtain ⟨rfl, ho, h⟩ := h
      simp only [assoc, same] at hx
      simp only [Env.set]
      split
      · rename_i he
        simp only [he, decide_true] at hx
        cases hx
        exact ⟨rfl, hv, h⟩
      · rename_i he
        simp only [he, decide_false] at hx
        exact ⟨rfl, ho, ih h hx⟩

theorem bindParams_sound {p : PtrWidth} {ret : T → Bool} {ps : List (Id × Ty)} {as : List T} {Γ : TEnv}
    (h : bindT ps as = some Γ) {vs : List Val} (hv : HaveT p vs (as.map T.loose)) :
    ∃ env, bindParams ps vs = some env ∧ EnvT p ret Γ env := by
  induction ps generalizing as vs Γ with
  | nil =>
    cases as with
    | nil =>
      cases h
      cases vs with
      | nil => exact ⟨[], rfl, trivial⟩
      | cons => exact hv.elim
    | cons => cases h
  | cons q ps ih =>
    obtain ⟨x, t⟩ := q
    cases as with
    | nil => cases h
    | cons a as =>
      cases vs with
      | nil => exact hv.elim
      | cons v vs =>
        simp only [bindT, Option.bind_eq_some_iff, Option.map_eq_some_iff] at h
        obtain ⟨b, hb, Δ, hd, rfl⟩ := h
        obtain ⟨env, he, henv⟩ := ih hd hv.2
        exact ⟨(x, .val (coerce t v)) :: env, by simp [bindParams, he], rfl, coerce_sound t hv.1 hb, henv⟩

/-! ## Patterns -/

/-- The value is of the case. -/
def Case.holds : Case → Val → Prop
  | .any, _ => True
  | .variant ty c, v => v = .variant ty c
  | .variantOf ty c s, v => ∃ w, v = .variantOf ty c w ∧ s.holds w

theorem casesOf_none {x c : Id} {vs : List (Id × Option Id)} (h : assoc vs c = some none) :
    .variant x c ∈ casesOf x vs := by
  induction vs with
  | nil => cases h
  | cons q vs ih =>
    obtain ⟨d, y⟩ := q
    simp only [assoc, same] at h
    split at h
    · rename_i he
      cases of_decide_eq_true he
      cases h
      exact List.mem_cons_self
    · cases y <;> exact List.mem_cons_of_mem _ (ih h)

theorem casesOf_some {x c y : Id} {vs : List (Id × Option Id)} (h : assoc vs c = some (some y)) :
    .variantOf x c .any ∈ casesOf x vs := by
  induction vs with
  | nil => cases h
  | cons q vs ih =>
    obtain ⟨d, y⟩ := q
    simp only [assoc, same] at h
    split at h
    · rename_i he
      cases of_decide_eq_true he
      cases h
      exact List.mem_cons_self
    · cases y <;> exact List.mem_cons_of_mem _ (ih h)

theorem cases_sound {p : PtrWidth} {a : T} {v : Val} (h : HasT p v a) : ∃ s ∈ a.cases, s.holds v := by
  induction h with
  | none => exact ⟨_, List.mem_cons_self, rfl⟩
  | some _ ih =>
    obtain ⟨s, hs, h⟩ := ih
    exact ⟨_, List.mem_cons_of_mem _ (List.mem_map.2 ⟨s, hs, rfl⟩), _, rfl, h⟩
  | ok _ _ ih =>
    obtain ⟨s, hs, h⟩ := ih
    exact ⟨_, List.mem_append.2 (.inl (List.mem_map.2 ⟨s, hs, rfl⟩)), _, rfl, h⟩
  | err _ _ ih =>
    obtain ⟨s, hs, h⟩ := ih
    exact ⟨_, List.mem_append.2 (.inr (List.mem_map.2 ⟨s, hs, rfl⟩)), _, rfl, h⟩
  | variant hv hc =>
    simp only [T.cases, hv]
    exact ⟨_, casesOf_none hc, rfl⟩
  | variantOf hv hc _ _ =>
    simp only [T.cases, hv]
    exact ⟨_, casesOf_some hc, _, rfl, trivial⟩
  | struct hf _ _ _ =>
    rename_i ty _ _
    simp only [T.cases]
    split
    · rename_i vs hv
      exfalso
      unfold membersOf at hf
      split at hf
      · cases hv
      · cases hf
    · exact ⟨.any, List.mem_singleton.2 rfl, trivial⟩
  | _ => exact ⟨.any, List.mem_singleton.2 rfl, trivial⟩

theorem left_mem {q : Pat} {s : Case} {cs : List Case} (h : s ∈ cs) (hc : patCovers q s ≠ true) : s ∈ left q cs := by
  induction cs with
  | nil => cases h
  | cons d cs ih =>
    simp only [left]
    split
    · rename_i hd
      rcases List.mem_cons.1 h with rfl | h
      · exact (hc hd).elim
      · exact ih h
    · rcases List.mem_cons.1 h with rfl | h
      · exact List.mem_cons_self
      · exact List.mem_cons_of_mem _ (ih h)

theorem variants_struct {ty : Id} {ds : List (Id × T)} (h : membersOf ty = some ds) : variants ty = none := by
  unfold membersOf at h
  split at h
  · rfl
  · cases h

theorem payload_sound {p : PtrWidth} {t : T} {ty c : Id} {q : Option T} (h : payload t ty c = some q) {v : Val}
    (hv : HasT p v t) : (∃ d, v = .variant ty d) ∨
      ∃ d w, v = .variantOf ty d w ∧ (d = c → ∃ a, q = some a ∧ HasT p w a) := by
  unfold payload at h
  split at h
  · split at h
    · cases hv with
      | none => exact .inl ⟨_, rfl⟩
      | some _ => exact .inr ⟨_, _, rfl, nofun⟩
    · cases h
      cases hv with
      | none => exact .inl ⟨_, rfl⟩
      | some hv => exact .inr ⟨_, _, rfl, fun _ => ⟨_, rfl, hv⟩⟩
    · cases h
  · split at h
    · cases h
      cases hv with
      | ok _ hv => exact .inr ⟨_, _, rfl, fun _ => ⟨_, rfl, hv⟩⟩
      | err _ _ => exact .inr ⟨_, _, rfl, nofun⟩
    · cases h
      cases hv with
      | ok _ hv => exact .inr ⟨_, _, rfl, nofun⟩
      | err _ hv => exact .inr ⟨_, _, rfl, fun _ => ⟨_, rfl, hv⟩⟩
    · cases h
  · split at h
    · rename_i hs
      cases same_eq hs
      obtain ⟨vs, hvs, h⟩ := Option.bind_eq_some_iff.1 h
      obtain ⟨y, hy, h⟩ := Option.map_eq_some_iff.1 h
      cases hv with
      | variant _ _ => exact .inl ⟨_, rfl⟩
      | variantOf h1 h2 hw =>
        refine .inr ⟨_, _, rfl, ?_⟩
        rintro rfl
        rw [hvs] at h1; cases h1
        rw [hy] at h2; cases h2
        exact ⟨_, h.symm, hw⟩
      | struct hf _ _ => rw [variants_struct hf] at hvs; cases hvs
    · cases h
  · cases h

theorem matchPat_sound {p : PtrWidth} {ret : T → Bool} {α : Type} {q : α → Prop} (pat : Pat) {t : T} {v : Val}
    (hv : HasT p v t) {Δ : TEnv} (hp : patT t pat = some Δ) {Γ : TEnv} {env : Env} (he : EnvT p ret Γ env)
    {k : Env → Out α} {fail : Out α} (hk : ∀ e, EnvT p ret (Δ ++ Γ) e → OutT p ret q (k e))
    (hf : (∀ s, patCovers pat s = true → ¬ s.holds v) → OutT p ret q fail) :
    OutT p ret q (matchPat v env pat k fail) := by
  induction pat generalizing t v Δ fail with
  | wild => cases hp; exact hk _ he
  | var x => cases hp; exact hk _ (he.cons hv)
  | lit n =>
    obtain ⟨hu, rfl⟩ := given_some hp
    obtain ⟨m, hm⟩ := unsigned_sound hv hu
    simp only [matchPat, hm]
    split
    · exact hk _ he
    · exact hf nofun
  | range lo hi =>
    obtain ⟨hu, rfl⟩ := given_some hp
    obtain ⟨m, hm⟩ := unsigned_sound hv hu
    simp only [matchPat, hm]
    split
    · exact hk _ he
    · exact hf nofun
  | ctor ty c =>
    simp only [patT] at hp
    split at hp
    · rename_i hq
      cases hp
      have hne (s : Case) (hc : patCovers (.ctor ty c) s = true) (hs : s.holds v) : v = .variant ty c := by
        cases s with
        | variant ty' c' =>
          simp only [patCovers, Bool.and_eq_true] at hc
          cases same_eq hc.1
          cases same_eq hc.2
          exact hs
        | _ => cases hc
      rcases payload_sound hq hv with ⟨d, rfl⟩ | ⟨d, w, rfl, _⟩
      · simp only [matchPat, if_true]
        split
        · exact hk _ he
        · rename_i hd
          refine hf fun s hc hs => ?_
          cases hne s hc hs
          exact hd rfl
      · simp only [matchPat, if_true]
        exact hf fun s hc hs => by cases hne s hc hs
    · cases hp
  | ctor1 ty c pat ih =>
    simp only [patT] at hp
    split at hp
    · rename_i a hq
      have hne (s : Case) (hc : patCovers (.ctor1 ty c pat) s = true) (hs : s.holds v) :
          ∃ w s', v = .variantOf ty c w ∧ patCovers pat s' = true ∧ s'.holds w := by
        cases s with
        | variantOf ty' c' s' =>
          simp only [patCovers, Bool.and_eq_true] at hc
          cases same_eq hc.1.1
          cases same_eq hc.1.2
          obtain ⟨w, rfl, hs⟩ := hs
          exact ⟨w, s', rfl, hc.2, hs⟩
        | _ => cases hc
      rcases payload_sound hq hv with ⟨d, rfl⟩ | ⟨d, w, rfl, hw⟩
      · simp only [matchPat, if_true]
        exact hf fun s hc hs => by obtain ⟨_, _, h, _⟩ := hne s hc hs; cases h
      · simp only [matchPat, if_true]
        split
        · rename_i hd
          cases hd
          obtain ⟨b, hb, hw⟩ := hw rfl
          cases hb
          refine ih hw hp hk fun hn => hf fun s hc hs => ?_
          obtain ⟨w', s', h, h1, h2⟩ := hne s hc hs
          cases h
          exact hn s' h1 h2
        · rename_i hd
          refine hf fun s hc hs => ?_
          obtain ⟨w', s', h, h1, h2⟩ := hne s hc hs
          cases h
          exact hd rfl
    · cases hp
  | or a b iha ihb =>
    simp only [patT] at hp
    split at hp
    · rename_i ha hb
      cases hp
      refine iha hv ha hk fun hna => ihb hv hb hk fun hnb => hf fun s hc => ?_
      simp only [patCovers, Bool.or_eq_true] at hc
      rcases hc with hc | hc
      · exact hna s hc
      · exact hnb s hc
    · cases hp

/-! ## Expressions -/

theorem showVal_sound {p : PtrWidth} {sig : Sig} {c : Id → Id → List Val → Out Val} (hc : CallT p sig c)
    {ret : T → Bool} {s : Spec} {a : T} (h : showT sig s a = true) {v : Val} (hv : HasT p v a) :
    OutT p ret (fun _ => True) (showVal c s v) := by
  unfold showT at h
  split at h
  · cases hv; trivial
  · split at h
    · rename_i x _ vs hvs hcall
      have hout := callT_sound hc hcall (vs := [v]) ⟨hv, trivial⟩ ret
      cases hv with
      | variant _ _ =>
        refine OutT.bind hout fun a ha => ?_
        cases ha; trivial
      | variantOf _ _ _ =>
        refine OutT.bind hout fun a ha => ?_
        cases ha; trivial
      | struct hf _ _ => rw [variants_struct hf] at hvs; cases hvs
    · cases h
  · cases hv; cases s <;> trivial
  · cases hv; cases s <;> trivial
  · cases h

theorem cond_sound {p : PtrWidth} {ret : T → Bool} {α : Type} {q : α → Prop} {t : T} (ht : isBool t = true) {v : Val}
    (hv : HasT p v t) {a b : Out α} (ha : OutT p ret q a) (hb : OutT p ret q b) : OutT p ret q (cond v a b) := by
  cases hv with
  | bool b => cases b <;> assumption
  | _ => cases ht

theorem OutT.weaken {p : PtrWidth} {ret : T → Bool} {α : Type} {q r : α → Prop} {x : Out α} (h : OutT p ret q x)
    (hq : ∀ a, q a → r a) : OutT p ret r x := by
  cases x with
  | val a => exact hq a h
  | ret v => exact h
  | panic => trivial
  | stuck => exact h

theorem isU32_some {t : Option T} (h : isU32 t = true) : t = some (.num .u32 true) := by
  unfold isU32 at h
  split at h
  · rfl
  · cases h

theorem forLoop_sound {p : PtrWidth} {ret : T → Bool} {Γ : TEnv} {a : T} {idx elt x : Id} {step : Env → Out Val}
    (hs : ∀ e, EnvT p ret ((elt, a) :: (idx, .num .usize true) :: Γ) e → OutT p ret (HasT p · (.num .u32 true)) (step e))
    (hx : assoc Γ x = some (.num .u32 true)) {vs : List Val} (hv : ∀ v ∈ vs, HasT p v a) {n : Nat}
    (hn : n + vs.length ≤ 2 ^ p.bits) {env : Env} (he : EnvT p ret Γ env) :
    OutT p ret (EnvT p ret Γ) (forLoop step idx elt x vs n env) := by
  induction vs generalizing n env with
  | nil => exact he
  | cons v vs ih =>
    simp only [forLoop]
    simp only [List.length_cons] at hn
    refine OutT.bind (he.get hx) fun y hy => OutT.bind (hs _ ((he.cons (o := .val (.usize n)) (HasT.usize _ (by omega))).cons
      (hv v List.mem_cons_self))) fun z hz => ?_
    cases hy
    cases hz
    exact ih (fun w hw => hv w (List.mem_cons_of_mem _ hw)) (by omega) (he.set hx (.u32 _ _))

theorem haveT_length {p : PtrWidth} {vs : List Val} {as : List T} (h : HaveT p vs as) : vs.length = as.length := by
  induction as generalizing vs with
  | nil => cases vs with
    | nil => rfl
    | cons => exact h.elim
  | cons a as ih => cases vs with
    | nil => exact h.elim
    | cons v vs => simp [ih h.2]

theorem lit_bits (n : Nat) : n < 2 ^ (Nat.log2 n + 1) := Nat.lt_log2_self

mutual

theorem infer_sound (md : Build) {sig : Sig} {c : Id → Id → List Val → Out Val} (hc : CallT md.ptr sig c)
    {ret : T → Bool} {Γ : TEnv} {env : Env} (he : EnvT md.ptr ret Γ env) : (x : Expr) → {t : T} →
    infer sig ret Γ x = some t → OutT md.ptr ret (HasT md.ptr · t) (eval md c env x)
  | .lit n, _, h => by cases h; exact .lit (lit_bits n)
  | .litT n ty, _, h => by simp only [eval]; exact coerce_sound ty (.lit (lit_bits n)) h
  | .unit, _, h => by cases h; exact .unit
  | .bool b, _, h => by cases h; exact .bool b
  | .str s, _, h => by cases h; exact .str s
  | .unreachable, _, h => by simp only [eval]; trivial
  | .var x, _, h => by simp only [infer] at h; simp only [eval]; exact he.get h
  | .callClosure x, _, h => by simp only [infer] at h; simp only [eval]; exact he.get h
  | .variant ty c, _, h => by simp only [infer] at h; simp only [eval]; exact variantT_sound h
  | .variantOf ty c a, _, h => by
    simp only [infer] at h; simp only [eval]
    obtain ⟨s, hs, h⟩ := Option.bind_eq_some_iff.1 h
    exact OutT.bind (infer_sound md hc he a hs) fun _ hv => variantOfT_sound h hv
  | .neg a, _, h => by
    simp only [infer] at h; simp only [eval]
    obtain ⟨s, hs, h⟩ := Option.bind_eq_some_iff.1 h
    exact OutT.bind (infer_sound md hc he a hs) fun _ hv => negVal_sound _ h hv
  | .cast a ty, _, h => by
    simp only [infer] at h; simp only [eval]
    obtain ⟨s, hs, h⟩ := Option.bind_eq_some_iff.1 h
    exact OutT.bind (infer_sound md hc he a hs) fun _ hv => castTo_sound h hv
  | .tryFrom ty a, _, h => by
    simp only [infer] at h; simp only [eval]
    obtain ⟨s, hs, h⟩ := Option.bind_eq_some_iff.1 h
    exact OutT.bind (infer_sound md hc he a hs) fun _ hv => tryFromTo_sound h hv
  | .from_ ty a, _, h => by
    simp only [infer] at h; simp only [eval]
    obtain ⟨s, hs, h⟩ := Option.bind_eq_some_iff.1 h
    exact OutT.bind (infer_sound md hc he a hs) fun _ hv => fromTo_sound h hv
  | .unwrap a, _, h => by
    simp only [infer] at h; simp only [eval]
    obtain ⟨s, hs, h⟩ := Option.bind_eq_some_iff.1 h
    exact OutT.bind (infer_sound md hc he a hs) fun _ hv => unwrapVal_sound h hv
  | .into a, _, h => by
    simp only [infer] at h; simp only [eval]
    obtain ⟨s, hs, h⟩ := Option.bind_eq_some_iff.1 h
    exact OutT.bind (infer_sound md hc he a hs) fun _ hv => intoTo_sound h hv
  | .question a, _, h => by
    simp only [infer] at h; simp only [eval]
    obtain ⟨s, hs, h⟩ := Option.bind_eq_some_iff.1 h
    exact OutT.bind (infer_sound md hc he a hs) fun _ hv => questionVal_sound h hv
  | .ret a, _, h => by
    simp only [infer] at h; simp only [eval]
    obtain ⟨s, hs, h⟩ := Option.bind_eq_some_iff.1 h
    obtain ⟨hr, rfl⟩ := given_some h
    exact OutT.bind (infer_sound md hc he a hs) fun v hv => ⟨s, hv, hr⟩
  | .field a x, _, h => by
    simp only [infer] at h; simp only [eval]
    obtain ⟨s, hs, h⟩ := Option.bind_eq_some_iff.1 h
    refine OutT.bind (infer_sound md hc he a hs) fun v hv => ?_
    split at h
    · obtain ⟨ds, hd, h⟩ := Option.bind_eq_some_iff.1 h
      cases hv with
      | variant hvs _ => rw [variants_struct hd] at hvs; cases hvs
      | variantOf hvs _ _ => rw [variants_struct hd] at hvs; cases hvs
      | struct hf hn hv =>
        rw [hf] at hd; cases hd
        exact getField_sound hn hv h
    · cases h
  | .call o f as, _, h => by
    simp only [infer] at h; simp only [eval]
    obtain ⟨ts, hs, h⟩ := Option.bind_eq_some_iff.1 h
    exact OutT.bind (inferArgs_sound md hc he as hs) fun vs hv => callT_sound hc h hv ret
  | .method a f as, _, h => by
    simp only [infer] at h; simp only [eval]
    obtain ⟨s, hs, h⟩ := Option.bind_eq_some_iff.1 h
    obtain ⟨ts, hts, h⟩ := Option.bind_eq_some_iff.1 h
    obtain ⟨o, ho, h⟩ := Option.bind_eq_some_iff.1 h
    refine OutT.bind (infer_sound md hc he a hs) fun v hv => OutT.bind (inferArgs_sound md hc he as hts) fun vs hvs => ?_
    rw [owner_sound hv ho]
    exact callT_sound hc h (vs := v :: vs) ⟨hv, hvs⟩ ret
  | .bin op a b, _, h => by
    simp only [infer] at h; simp only [eval]
    obtain ⟨s, hs, h⟩ := Option.bind_eq_some_iff.1 h
    obtain ⟨u, hu, h⟩ := Option.bind_eq_some_iff.1 h
    exact OutT.bind (infer_sound md hc he a hs) fun v hv => OutT.bind (infer_sound md hc he b hu) fun w hw =>
      binOp_sound _ h hv hw
  | .pow a b, _, h => by
    simp only [infer] at h; simp only [eval]
    obtain ⟨s, hs, h⟩ := Option.bind_eq_some_iff.1 h
    obtain ⟨u, hu, h⟩ := Option.bind_eq_some_iff.1 h
    exact OutT.bind (infer_sound md hc he a hs) fun v hv => OutT.bind (infer_sound md hc he b hu) fun w hw =>
      power_sound _ h hv hw
  | .matches_ a q, _, h => by
    simp only [infer] at h; simp only [eval]
    obtain ⟨s, hs, h⟩ := Option.bind_eq_some_iff.1 h
    obtain ⟨Δ, hd, rfl⟩ := Option.map_eq_some_iff.1 h
    exact OutT.bind (infer_sound md hc he a hs) fun v hv =>
      matchPat_sound q hv hd he (fun _ _ => .bool true) fun _ => .bool false
  | .orElse _ _ _, _, h => by simp only [infer] at h; cases h
  | .ite a b d, _, h => by
    simp only [infer] at h; simp only [eval]
    obtain ⟨s, hs, h⟩ := Option.bind_eq_some_iff.1 h
    obtain ⟨u, hu, h⟩ := Option.bind_eq_some_iff.1 h
    obtain ⟨w, hw, h⟩ := Option.bind_eq_some_iff.1 h
    split at h
    · rename_i hb
      exact OutT.bind (infer_sound md hc he a hs) fun v hv =>
        cond_sound hb hv ((infer_sound md hc he b hu).weaken (join_sound _ h).1)
          ((infer_sound md hc he d hw).weaken (join_sound _ h).2)
    · cases h
  | .match_ a as, _, h => by
    simp only [infer] at h; simp only [eval]
    obtain ⟨s, hs, h⟩ := Option.bind_eq_some_iff.1 h
    exact OutT.bind (infer_sound md hc he a hs) fun v hv => inferArms_sound md hc he hv as (cases_sound hv) h
  | .block ss, _, h => by
    simp only [infer] at h; simp only [eval]; exact inferStmts_sound md hc he ss h
  | .struct ty fs, _, h => by
    simp only [infer] at h; simp only [eval]
    obtain ⟨gs, hg, h⟩ := Option.bind_eq_some_iff.1 h
    obtain ⟨ds, hd, h⟩ := Option.bind_eq_some_iff.1 h
    obtain ⟨hf, rfl⟩ := given_some h
    exact OutT.bind (inferFields_sound md hc he fs hg) fun vs hv =>
      .struct hd (fieldsFit_sound hv.1 hv.2 hf).1 (fieldsFit_sound hv.1 hv.2 hf).2
  | .array es, _, h => by
    simp only [infer] at h; simp only [eval]
    obtain ⟨as, ha, h⟩ := Option.bind_eq_some_iff.1 h
    obtain ⟨a, hj, h⟩ := Option.bind_eq_some_iff.1 h
    obtain ⟨hl, rfl⟩ := given_some h
    refine OutT.bind (inferArgs_sound md hc he es ha) fun vs hv => .array ?_ (joins_sound hj hv)
    rw [haveT_length hv]
    exact Nat.le_trans (Nat.le_of_ble_eq_true hl) (ptr_le _)
  | .write ps, _, h => by
    simp only [infer] at h; simp only [eval]
    obtain ⟨hp, rfl⟩ := given_some h
    exact OutT.bind (inferPieces_sound md hc he ps hp) fun _ _ => .text _

theorem inferArgs_sound (md : Build) {sig : Sig} {c : Id → Id → List Val → Out Val} (hc : CallT md.ptr sig c)
    {ret : T → Bool} {Γ : TEnv} {env : Env} (he : EnvT md.ptr ret Γ env) : (x : Exprs) → {as : List T} →
    inferArgs sig ret Γ x = some as → OutT md.ptr ret (HaveT md.ptr · as) (evalArgs md c env x)
  | .nil, _, h => by cases h; simp only [evalArgs]; trivial
  | .cons a as, _, h => by
    simp only [inferArgs] at h; simp only [evalArgs]
    obtain ⟨s, hs, h⟩ := Option.bind_eq_some_iff.1 h
    obtain ⟨ts, hts, rfl⟩ := Option.map_eq_some_iff.1 h
    exact OutT.bind (infer_sound md hc he a hs) fun v hv => OutT.bind (inferArgs_sound md hc he as hts) fun vs hvs =>
      ⟨hv, hvs⟩

theorem inferArms_sound (md : Build) {sig : Sig} {c : Id → Id → List Val → Out Val} (hc : CallT md.ptr sig c)
    {ret : T → Bool} {Γ : TEnv} {env : Env} (he : EnvT md.ptr ret Γ env) {t : T} {v : Val} (hv : HasT md.ptr v t) :
    (x : Arms) → {cs : List Case} → (∃ s ∈ cs, s.holds v) → {r : T} → inferArms sig ret Γ t cs x = some r →
    OutT md.ptr ret (HasT md.ptr · r) (evalArms md c env v x)
  | .nil, cs, hs, _, h => by
    obtain ⟨s, hs, _⟩ := hs
    cases cs with
    | nil => cases hs
    | cons => simp only [inferArms] at h; cases h
  | .cons q a as, cs, hs, _, h => by
    simp only [inferArms] at h; simp only [evalArms]
    obtain ⟨Δ, hd, h⟩ := Option.bind_eq_some_iff.1 h
    obtain ⟨u, hu, h⟩ := Option.bind_eq_some_iff.1 h
    obtain ⟨w, hw, h⟩ := Option.bind_eq_some_iff.1 h
    refine matchPat_sound q hv hd he (fun e hk => (infer_sound md hc hk a hu).weaken (join_sound _ h).1) fun hn => ?_
    obtain ⟨s, hm, hh⟩ := hs
    exact (inferArms_sound md hc he hv as ⟨s, left_mem hm fun hcov => hn s hcov hh, hh⟩ hw).weaken (join_sound _ h).2

theorem inferFields_sound (md : Build) {sig : Sig} {c : Id → Id → List Val → Out Val} (hc : CallT md.ptr sig c)
    {ret : T → Bool} {Γ : TEnv} {env : Env} (he : EnvT md.ptr ret Γ env) : (x : Fields) → {gs : List (Id × T)} →
    inferFields sig ret Γ x = some gs → OutT md.ptr ret (fun fs => fs.map Prod.fst = gs.map Prod.fst ∧
      ∀ x v y t, ((x, v), (y, t)) ∈ fs.zip gs → HasT md.ptr v t) (evalFields md c env x)
  | .nil, _, h => by cases h; simp only [evalFields]; exact ⟨rfl, by simp⟩
  | .cons z a fs, _, h => by
    simp only [inferFields] at h; simp only [evalFields]
    obtain ⟨s, hs, h⟩ := Option.bind_eq_some_iff.1 h
    obtain ⟨ts, hts, rfl⟩ := Option.map_eq_some_iff.1 h
    refine OutT.bind (infer_sound md hc he a hs) fun v hv => OutT.bind (inferFields_sound md hc he fs hts) fun vs hvs =>
      ⟨by simp [hvs.1], fun x u y t hm => ?_⟩
    rw [List.zip_cons_cons] at hm
    rcases List.mem_cons.1 hm with e | hm
    · cases e; exact hv
    · exact hvs.2 x u y t hm

theorem inferPieces_sound (md : Build) {sig : Sig} {c : Id → Id → List Val → Out Val} (hc : CallT md.ptr sig c)
    {ret : T → Bool} {Γ : TEnv} {env : Env} (he : EnvT md.ptr ret Γ env) : (x : Pieces) →
    inferPieces sig ret Γ x = true → OutT md.ptr ret (fun _ => True) (evalPieces md c env x)
  | .nil, _ => by simp only [evalPieces]; trivial
  | .text s ps, h => by
    simp only [inferPieces] at h; simp only [evalPieces]
    exact OutT.bind (inferPieces_sound md hc he ps h) fun _ _ => trivial
  | .arg s a ps, h => by
    simp only [inferPieces] at h; simp only [evalPieces]
    split at h
    · rename_i t ht
      rw [Bool.and_eq_true] at h
      exact OutT.bind (infer_sound md hc he a ht) fun v hv => OutT.bind (showVal_sound hc h.1 hv) fun _ _ =>
        OutT.bind (inferPieces_sound md hc he ps h.2) fun _ _ => trivial
    · cases h

theorem inferStmts_sound (md : Build) {sig : Sig} {c : Id → Id → List Val → Out Val} (hc : CallT md.ptr sig c)
    {ret : T → Bool} {Γ : TEnv} {env : Env} (he : EnvT md.ptr ret Γ env) : (x : Stmts) → {t : T} →
    inferStmts sig ret Γ x = some t → OutT md.ptr ret (HasT md.ptr · t) (evalStmts md c env x)
  | .done a, _, h => by simp only [inferStmts] at h; simp only [evalStmts]; exact infer_sound md hc he a h
  | .let_ x ty a ss, _, h => by
    simp only [inferStmts] at h; simp only [evalStmts]
    obtain ⟨s, hs, h⟩ := Option.bind_eq_some_iff.1 h
    obtain ⟨u, hu, h⟩ := Option.bind_eq_some_iff.1 h
    exact OutT.bind (infer_sound md hc he a hs) fun v hv =>
      inferStmts_sound md hc (he.cons (o := .val _) (coerce_sound ty hv hu)) ss h
  | .letClosure x a ss, _, h => by
    simp only [inferStmts] at h; simp only [evalStmts]
    obtain ⟨s, hs, h⟩ := Option.bind_eq_some_iff.1 h
    exact inferStmts_sound md hc (he.cons (infer_sound md hc he a hs)) ss h
  | .letFn _ _ _ _ _, _, h => by simp only [inferStmts] at h; cases h
  | .expr a ss, _, h => by
    simp only [inferStmts] at h; simp only [evalStmts]
    obtain ⟨s, hs, h⟩ := Option.bind_eq_some_iff.1 h
    exact OutT.bind (infer_sound md hc he a hs) fun v hv => inferStmts_sound md hc he ss h
  | .assert a ss, _, h => by
    simp only [inferStmts] at h; simp only [evalStmts]
    obtain ⟨s, hs, h⟩ := Option.bind_eq_some_iff.1 h
    split at h
    · rename_i hb
      exact OutT.bind (infer_sound md hc he a hs) fun v hv => cond_sound hb hv (inferStmts_sound md hc he ss h) trivial
    · cases h
  | .assertEq _ _ _ _, _, h => by simp only [inferStmts] at h; cases h
  | .forRevEnum idx elt a x b ss, _, h => by
    simp only [inferStmts] at h; simp only [evalStmts]
    obtain ⟨s, hs, h⟩ := Option.bind_eq_some_iff.1 h
    refine OutT.bind (infer_sound md hc he a hs) fun v hv => ?_
    split at h
    · split at h
      · rename_i hb
        rw [Bool.and_eq_true] at hb
        cases hv with
        | array hl hv =>
          exact OutT.bind (forLoop_sound (fun e hk => infer_sound md hc hk b (isU32_some hb.2)) (isU32_some hb.1)
            (fun w hw => hv w (List.mem_reverse.1 hw)) (by simpa using hl) he) fun e hk => inferStmts_sound md hc hk ss h
      · cases h
    · cases h

end

/-- A function that has a type takes arguments of its parameter types to a value of its result type, or panics. -/
theorem fnT_sound (md : Build) {sig : Sig} {c : Id → Id → List Val → Out Val} (hc : CallT md.ptr sig c) {fn : Fn}
    {ps : List T} {r : T} (h : fnT sig fn ps r = true) {args : List Val} (ha : HaveT md.ptr args (ps.map T.loose)) :
    OutT md.ptr (fun _ => false) (HasT md.ptr · r) (run md c fn args) := by
  have hret {v : Val} {a : T} (hv : HasT md.ptr v a) (hr : mayReturn fn.ret r a = true) :
      HasT md.ptr (coerce fn.ret v) r := by
    unfold mayReturn at hr
    split at hr
    · rename_i hb
      exact sub_sound _ (coerce_sound _ hv hb) hr
    · cases hr
  unfold fnT at h
  split at h
  · rename_i Γ hg
    split at h
    · rename_i a hi
      obtain ⟨env, hb, he⟩ := bindParams_sound (ret := mayReturn fn.ret r) hg ha
      have := infer_sound md hc he fn.body hi
      simp only [run, hb]
      generalize eval md c env fn.body = o at this
      cases o with
      | val v => exact hret this h
      | ret v => obtain ⟨t, ht, hr⟩ := this; exact hret ht hr
      | panic => trivial
      | stuck => exact this
    · cases h
  · cases h

end Raki.Source
