import Verif.Source.Relate
import Verif.Lemmas.Release
/-!
# The bit helpers of the source

For every argument, the source of `slice`, `set` and `to_signed_nbit` computes what the model says, with
overflow checks and without.
-/

namespace Raki.Source

theorem toNat_sub_le {e s : BitVec 32} (h : s.toNat ≤ e.toNat) : (e - s).toNat = e.toNat - s.toNat :=
  BitVec.toNat_sub_of_le (BitVec.le_def.mpr h)

/-- `end - start + 1` with overflow checks. -/
theorem width_checked (e s : BitVec 32) (h : s.toNat ≤ e.toNat) :
    subU e s = .ok (e - s) ∧ subNat e.toNat s.toNat = .ok (e - s).toNat ∧
    ((addU (e - s) 1#32 = .ok (e - s + 1#32) ∧ (e - s + 1#32).toNat = (e - s).toNat + 1) ∨
      (addU (e - s) 1#32 = .panic ∧ ∀ n, n ≤ 32 → powU n 2 ((e - s).toNat + 1) = .panic)) := by
  have h3 := toNat_sub_le h
  refine ⟨by simp [subU, h], by simp [subNat, h, h3], ?_⟩
  by_cases h4 : (e - s).toNat + 1 < 2 ^ 32
  · left
    refine ⟨by simp [addU]; omega, ?_⟩
    rw [BitVec.toNat_add]; simp; omega
  · right
    refine ⟨by simp [addU]; omega, fun n hn => ?_⟩
    have : ¬ 2 ^ ((e - s).toNat + 1) < 2 ^ n := by
      rw [Nat.pow_lt_pow_iff_right (by decide)]; omega
    rw [powU, if_neg this]

/-- `end - start + 1` without overflow checks. -/
theorem width_wrapping (e s : BitVec 32) :
    Release.subNat e.toNat s.toNat = .ok (e - s).toNat ∧
    (e - s + 1#32).toNat = ((e - s).toNat + 1) % 2 ^ 32 := by
  refine ⟨?_, ?_⟩
  · rw [Release.subNat, BitVec.toNat_sub]
    congr 2
    have := s.isLt
    omega
  · rw [BitVec.toNat_add]; rfl

theorem cast_one : ((1 : Nat) : Int) = 1 := by decide
theorem cast_two : ((2 : Nat) : Int) = 2 := by decide

/-- `bit_size - 1` with overflow checks. -/
theorem pred_checked (k : BitVec 32) : subNat k.toNat 1 = (subU k 1#32 >>= fun k => .ok k.toNat) := by
  have h1 : (1#32).toNat = 1 := rfl
  by_cases h : 1 ≤ k.toNat
  · rw [subNat, if_pos h, subU, h1, if_pos h, RustM.bind_ok, BitVec.toNat_sub_of_le (BitVec.le_def.mpr (h1 ▸ h)), h1]
  · rw [subNat, if_neg h, subU, h1, if_neg h]; rfl

/-- `bit_size - 1` without overflow checks. -/
theorem pred_wrapping (k : BitVec 32) : Release.subNat k.toNat 1 = .ok (k - 1#32).toNat :=
  (width_wrapping k 1#32).1

theorem slice32_checked (p : PtrWidth) (w : BitVec 32) (e s : BitVec 32) (n : Nat) :
    call crate ⟨.checked, p⟩ (n + 1) .u32 .slice [emb w, emb e, emb s] =
      outV (U32.slice w e.toNat s.toNat) := by
  rw [call_u32_slice]
  simp only [emb, u32_slice, U32.slice, rAssert]
  run_source []
  by_cases h : s.toNat ≤ e.toNat
  · obtain ⟨h1, h2, h3⟩ := width_checked e s h
    have t2 : (2#32).toNat = 2 := rfl
    simp only [ge_iff_le, h, h1, h2, decide_true, if_true, RustM.bind_ok]
    cases hs : shrU w s.toNat
    · rcases h3 with ⟨h3, h4⟩ | ⟨h3, h4⟩
      · run_source [h3, RustM.bind_ok, t2, h4]
        cases hp : powU 32 2 ((e - s).toNat + 1)
        · rename_i a p
          run_source [RustM.bind_ok]
          rw [show (1 : BitVec 32) = 1#32 from rfl]
          cases hq : subU p 1#32 <;>
            run_source [RustM.bind_ok, RustM.bind_err, RustM.bind_panic, cast_one] <;> rfl
        · rfl
        · rfl
      · run_source [h3, RustM.bind_ok, t2, h4 32 (by decide)]
        rfl
    · rfl
    · rfl
  · simp [h]
    rfl

theorem slice32_wrapping (p : PtrWidth) (w : BitVec 32) (e s : BitVec 32) (n : Nat) :
    call crate ⟨.wrapping, p⟩ (n + 1) .u32 .slice [emb w, emb e, emb s] =
      outV (Release.U32.slice w e.toNat s.toNat) := by
  rw [call_u32_slice]
  simp only [emb, u32_slice, Release.U32.slice, rAssert]
  run_source []
  by_cases h : s.toNat ≤ e.toNat
  · obtain ⟨h1, h2⟩ := width_wrapping e s
    simp only [ge_iff_le, h, decide_true, if_true, RustM.bind_ok, Release.shrU, Release.subU, Release.powU]
    run_source [RustM.bind_ok, h1, h2, BitVec.ofNat_eq_ofNat]
    rfl
  · simp [h]
    rfl

theorem slice16_checked (p : PtrWidth) (w : BitVec 16) (e s : BitVec 32) (n : Nat) :
    call crate ⟨.checked, p⟩ (n + 1) .u16 .slice [emb w, emb e, emb s] =
      outV (U16.slice w e.toNat s.toNat) := by
  rw [call_u16_slice]
  simp only [emb, u16_slice, U16.slice, rAssert]
  run_source []
  by_cases h : s.toNat ≤ e.toNat
  · obtain ⟨h1, h2, h3⟩ := width_checked e s h
    have t2 : (2#16).toNat = 2 := rfl
    simp only [ge_iff_le, h, h1, h2, decide_true, if_true, RustM.bind_ok]
    cases hs : shrU w s.toNat
    · rcases h3 with ⟨h3, h4⟩ | ⟨h3, h4⟩
      · run_source [h3, RustM.bind_ok, t2, h4]
        cases hp : powU 16 2 ((e - s).toNat + 1)
        · rename_i a p
          run_source [RustM.bind_ok]
          rw [show (1 : BitVec 16) = 1#16 from rfl]
          cases hq : subU p 1#16 <;>
            run_source [RustM.bind_ok, RustM.bind_err, RustM.bind_panic, cast_one] <;> rfl
        · rfl
        · rfl
      · run_source [h3, RustM.bind_ok, t2, h4 16 (by decide)]
        rfl
    · rfl
    · rfl
  · simp [h]
    rfl

theorem slice16_wrapping (p : PtrWidth) (w : BitVec 16) (e s : BitVec 32) (n : Nat) :
    call crate ⟨.wrapping, p⟩ (n + 1) .u16 .slice [emb w, emb e, emb s] =
      outV (Release.U16.slice w e.toNat s.toNat) := by
  rw [call_u16_slice]
  simp only [emb, u16_slice, Release.U16.slice, rAssert]
  run_source []
  by_cases h : s.toNat ≤ e.toNat
  · obtain ⟨h1, h2⟩ := width_wrapping e s
    simp only [ge_iff_le, h, decide_true, if_true, RustM.bind_ok, Release.shrU, Release.subU, Release.powU]
    run_source [RustM.bind_ok, h1, h2, BitVec.ofNat_eq_ofNat]
    rfl
  · simp [h]
    rfl

theorem signed32_checked (p : PtrWidth) (self : Val) (x : Int) (k : BitVec 32) (n : Nat) :
    call crate ⟨.checked, p⟩ (n + 1) .u32 .to_signed_nbit [self, emb x, emb k] =
      outV (to_signed_nbit x k.toNat) := by
  rw [call_u32_to_signed_nbit]
  simp only [emb, u32_to_signed_nbit, to_signed_nbit]
  run_source [cast_one, cast_two]
  cases hp : chkI32 (2 ^ k.toNat) <;> run_source [RustM.bind_ok, RustM.bind_err, RustM.bind_panic, cast_one]
  · rename_i p
    cases hm : chkI32 (p - 1) <;> run_source [RustM.bind_ok, RustM.bind_err, RustM.bind_panic, cast_one]
    · rename_i m
      rw [pred_checked]
      cases hk : subU k 1#32 <;> run_source [RustM.bind_ok, RustM.bind_err, RustM.bind_panic, cast_one]
      · rename_i k'
        cases hs : sarI32 (andI32 x m) k'.toNat <;>
          run_source [RustM.bind_ok, RustM.bind_err, RustM.bind_panic, cast_one]
        · rename_i a
          by_cases h : andI32 a 1 = 1
          · simp only [h, if_true]
            cases chkI32 (andI32 x m - p) <;> rfl
          · simp only [h, if_false]
            rfl
        all_goals rfl
      all_goals rfl
    all_goals rfl
  all_goals rfl

theorem signed32_wrapping (p : PtrWidth) (self : Val) (x : Int) (k : BitVec 32) (n : Nat) :
    call crate ⟨.wrapping, p⟩ (n + 1) .u32 .to_signed_nbit [self, emb x, emb k] =
      outV (Release.to_signed_nbit x k.toNat) := by
  rw [call_u32_to_signed_nbit]
  simp only [emb, u32_to_signed_nbit, Release.to_signed_nbit]
  run_source [cast_two, Release.chkI32, Release.sarI32, Release.subU, pred_wrapping, RustM.bind_ok,
    cast_one]
  split <;> rfl

theorem signed16_checked (p : PtrWidth) (self : Val) (x : Int) (k : BitVec 32) (n : Nat) :
    call crate ⟨.checked, p⟩ (n + 1) .u16 .to_signed_nbit [self, emb x, emb k] =
      outV (to_signed_nbit x k.toNat) := by
  rw [call_u16_to_signed_nbit]
  simp only [emb, u16_to_signed_nbit, to_signed_nbit]
  run_source [cast_one, cast_two]
  cases hp : chkI32 (2 ^ k.toNat) <;> run_source [RustM.bind_ok, RustM.bind_err, RustM.bind_panic, cast_one]
  · rename_i p
    cases hm : chkI32 (p - 1) <;> run_source [RustM.bind_ok, RustM.bind_err, RustM.bind_panic, cast_one]
    · rename_i m
      rw [pred_checked]
      cases hk : subU k 1#32 <;> run_source [RustM.bind_ok, RustM.bind_err, RustM.bind_panic, cast_one]
      · rename_i k'
        cases hs : sarI32 (andI32 x m) k'.toNat <;>
          run_source [RustM.bind_ok, RustM.bind_err, RustM.bind_panic, cast_one]
        · rename_i a
          by_cases h : andI32 a 1 = 1
          · simp only [h, if_true]
            cases chkI32 (andI32 x m - p) <;> rfl
          · simp only [h, if_false]
            rfl
        all_goals rfl
      all_goals rfl
    all_goals rfl
  all_goals rfl

theorem signed16_wrapping (p : PtrWidth) (self : Val) (x : Int) (k : BitVec 32) (n : Nat) :
    call crate ⟨.wrapping, p⟩ (n + 1) .u16 .to_signed_nbit [self, emb x, emb k] =
      outV (Release.to_signed_nbit x k.toNat) := by
  rw [call_u16_to_signed_nbit]
  simp only [emb, u16_to_signed_nbit, Release.to_signed_nbit]
  run_source [cast_two, Release.chkI32, Release.sarI32, Release.subU, pred_wrapping, RustM.bind_ok,
    cast_one]
  split <;> rfl

theorem set32_checked (p : PtrWidth) (x : BitVec 32) (mask : List (BitVec 32)) (n : Nat) :
    call crate ⟨.checked, p⟩ (n + 1) .u32 .«set» [emb x, .array (mask.map emb)] =
      outV (U32.set x (mask.map BitVec.toNat)) := by
  rw [call_u32_set]
  simp only [emb, u32_set, U32.set]
  run_source [List.map_map]
  have h : (mask.map Val.u32).reverse = mask.reverse.map Val.u32 := by simp
  have hc : coerce Ty.u32 ∘ Val.u32 = Val.u32 := rfl
  have h' : (mask.map BitVec.toNat).reverse = mask.reverse.map BitVec.toNat := by simp
  simp only [hc, h, h']
  generalize mask.reverse = ms
  have key : ∀ (ms : List (BitVec 32)) (i : Nat) (acc : BitVec 32),
      leave .u32 (forLoop (fun env => eval ⟨.checked, p⟩ (call crate ⟨.checked, p⟩ n) env
          (.bin .shl (.bin .and (.bin .shr (.var .self) (.var .i)) (.lit 1)) (.var .m)))
          .i .m .inst (ms.map Val.u32) i
          [(.inst, .val (.u32 acc)), (.self, .val (.u32 x)), (.mask, .val (.array (mask.map Val.u32)))] >>=
          fun env => Env.get env .inst) =
        outV (setLoop x (ms.map BitVec.toNat) i acc) := by
    intro ms
    induction ms with
    | nil => intro i acc; rfl
    | cons m ms ih =>
      intro i acc
      simp only [List.map_cons, forLoop, setLoop]
      run_source []
      cases ha : shrU x i <;> run_source [RustM.bind_ok, RustM.bind_err, RustM.bind_panic, cast_one]
      · rename_i a
        rw [show (1 : BitVec 32) = 1#32 from rfl]
        cases hb : shlU (a &&& 1#32) m.toNat <;>
          run_source [RustM.bind_ok, RustM.bind_err, RustM.bind_panic, cast_one]
        · run_source [Env.set]
          exact ih _ _
        all_goals rfl
      all_goals rfl
  exact key ms 0 0

theorem set32_wrapping (p : PtrWidth) (x : BitVec 32) (mask : List (BitVec 32)) (n : Nat) :
    call crate ⟨.wrapping, p⟩ (n + 1) .u32 .«set» [emb x, .array (mask.map emb)] =
      outV (Release.U32.set x (mask.map BitVec.toNat)) := by
  rw [call_u32_set]
  simp only [emb, u32_set, Release.U32.set]
  run_source [List.map_map]
  have h : (mask.map Val.u32).reverse = mask.reverse.map Val.u32 := by simp
  have hc : coerce Ty.u32 ∘ Val.u32 = Val.u32 := rfl
  have h' : (mask.map BitVec.toNat).reverse = mask.reverse.map BitVec.toNat := by simp
  simp only [hc, h, h']
  generalize mask.reverse = ms
  have key : ∀ (ms : List (BitVec 32)) (i : Nat) (acc : BitVec 32),
      leave .u32 (forLoop (fun env => eval ⟨.wrapping, p⟩ (call crate ⟨.wrapping, p⟩ n) env
          (.bin .shl (.bin .and (.bin .shr (.var .self) (.var .i)) (.lit 1)) (.var .m)))
          .i .m .inst (ms.map Val.u32) i
          [(.inst, .val (.u32 acc)), (.self, .val (.u32 x)), (.mask, .val (.array (mask.map Val.u32)))] >>=
          fun env => Env.get env .inst) =
        outV (Release.setLoop x (ms.map BitVec.toNat) i acc) := by
    intro ms
    induction ms with
    | nil => intro i acc; rfl
    | cons m ms ih =>
      intro i acc
      simp only [List.map_cons, forLoop, Release.setLoop]
      run_source []
      cases ha : Release.shrU x i <;> run_source [RustM.bind_ok, RustM.bind_err, RustM.bind_panic, cast_one]
      · rename_i a
        rw [show (1 : BitVec 32) = 1#32 from rfl]
        cases hb : Release.shlU (a &&& 1#32) m.toNat <;>
          run_source [RustM.bind_ok, RustM.bind_err, RustM.bind_panic, cast_one]
        · run_source [Env.set]
          exact ih _ _
        all_goals rfl
      all_goals rfl
  exact key ms 0 0

theorem set16_checked (p : PtrWidth) (x : BitVec 16) (mask : List (BitVec 32)) (n : Nat) :
    call crate ⟨.checked, p⟩ (n + 1) .u16 .«set» [emb x, .array (mask.map emb)] =
      outV (U16.set x (mask.map BitVec.toNat)) := by
  rw [call_u16_set]
  simp only [emb, u16_set, U16.set]
  run_source [List.map_map]
  have h : (mask.map Val.u32).reverse = mask.reverse.map Val.u32 := by simp
  have hc : coerce Ty.u32 ∘ Val.u32 = Val.u32 := rfl
  have h' : (mask.map BitVec.toNat).reverse = mask.reverse.map BitVec.toNat := by simp
  simp only [hc, h, h']
  generalize mask.reverse = ms
  have key : ∀ (ms : List (BitVec 32)) (i : Nat) (acc : BitVec 32),
      leave .u32 (forLoop (fun env => eval ⟨.checked, p⟩ (call crate ⟨.checked, p⟩ n) env
          (.bin .shl (.bin .and (.bin .shr (.from_ .u32 (.var .self)) (.var .i)) (.lit 1)) (.var .m)))
          .i .m .inst (ms.map Val.u32) i
          [(.inst, .val (.u32 acc)), (.self, .val (.u16 x)), (.mask, .val (.array (mask.map Val.u32)))] >>=
          fun env => Env.get env .inst) =
        outV (setLoop (x.setWidth 32) (ms.map BitVec.toNat) i acc) := by
    intro ms
    induction ms with
    | nil => intro i acc; rfl
    | cons m ms ih =>
      intro i acc
      simp only [List.map_cons, forLoop, setLoop]
      run_source []
      cases ha : shrU (x.setWidth 32) i <;> run_source [RustM.bind_ok, RustM.bind_err, RustM.bind_panic, cast_one]
      · rename_i a
        rw [show (1 : BitVec 32) = 1#32 from rfl]
        cases hb : shlU (a &&& 1#32) m.toNat <;>
          run_source [RustM.bind_ok, RustM.bind_err, RustM.bind_panic, cast_one]
        · run_source [Env.set]
          exact ih _ _
        all_goals rfl
      all_goals rfl
  exact key ms 0 0

theorem set16_wrapping (p : PtrWidth) (x : BitVec 16) (mask : List (BitVec 32)) (n : Nat) :
    call crate ⟨.wrapping, p⟩ (n + 1) .u16 .«set» [emb x, .array (mask.map emb)] =
      outV (Release.U16.set x (mask.map BitVec.toNat)) := by
  rw [call_u16_set]
  simp only [emb, u16_set, Release.U16.set]
  run_source [List.map_map]
  have h : (mask.map Val.u32).reverse = mask.reverse.map Val.u32 := by simp
  have hc : coerce Ty.u32 ∘ Val.u32 = Val.u32 := rfl
  have h' : (mask.map BitVec.toNat).reverse = mask.reverse.map BitVec.toNat := by simp
  simp only [hc, h, h']
  generalize mask.reverse = ms
  have key : ∀ (ms : List (BitVec 32)) (i : Nat) (acc : BitVec 32),
      leave .u32 (forLoop (fun env => eval ⟨.wrapping, p⟩ (call crate ⟨.wrapping, p⟩ n) env
          (.bin .shl (.bin .and (.bin .shr (.from_ .u32 (.var .self)) (.var .i)) (.lit 1)) (.var .m)))
          .i .m .inst (ms.map Val.u32) i
          [(.inst, .val (.u32 acc)), (.self, .val (.u16 x)), (.mask, .val (.array (mask.map Val.u32)))] >>=
          fun env => Env.get env .inst) =
        outV (Release.setLoop (x.setWidth 32) (ms.map BitVec.toNat) i acc) := by
    intro ms
    induction ms with
    | nil => intro i acc; rfl
    | cons m ms ih =>
      intro i acc
      simp only [List.map_cons, forLoop, Release.setLoop]
      run_source []
      cases ha : Release.shrU (x.setWidth 32) i <;> run_source [RustM.bind_ok, RustM.bind_err, RustM.bind_panic, cast_one]
      · rename_i a
        rw [show (1 : BitVec 32) = 1#32 from rfl]
        cases hb : Release.shlU (a &&& 1#32) m.toNat <;>
          run_source [RustM.bind_ok, RustM.bind_err, RustM.bind_panic, cast_one]
        · run_source [Env.set]
          exact ih _ _
        all_goals rfl
      all_goals rfl
  exact key ms 0 0

/-! ## On the arguments the decoder uses -/

/-- `slice` with literal bounds, in both modes. -/
theorem slice32_lit (md : Build) (n : Nat) (w : BitVec 32) (e s : Nat) (h1 : s ≤ e) (h2 : e - s + 1 < 32)
    (h3 : s < 32) :
    call crate md (n + 1) .u32 .slice [.u32 w, .lit e, .lit s] =
      .val (.u32 (BitVec.ofNat 32 (Spec.fld w.toNat e s))) := by
  have he : (BitVec.ofNat 32 e).toNat = e := by rw [BitVec.toNat_ofNat]; omega
  have hs : (BitVec.ofNat 32 s).toNat = s := by rw [BitVec.toNat_ofNat]; omega
  have hm := U32.slice_eq w e s h1 h2 h3
  obtain ⟨m, p⟩ := md
  cases m
  · refine (slice32_checked p w (BitVec.ofNat 32 e) (BitVec.ofNat 32 s) n).trans ?_
    rw [he, hs, hm]; rfl
  · refine (slice32_wrapping p w (BitVec.ofNat 32 e) (BitVec.ofNat 32 s) n).trans ?_
    rw [he, hs, (slice32_refines w e s).eq (by rw [hm]; nofun), hm]; rfl

theorem slice16_lit (md : Build) (n : Nat) (w : BitVec 16) (e s : Nat) (h1 : s ≤ e) (h2 : e - s + 1 < 16)
    (h3 : s < 16) :
    call crate md (n + 1) .u16 .slice [.u16 w, .lit e, .lit s] =
      .val (.u16 (BitVec.ofNat 16 (Spec.fld w.toNat e s))) := by
  have he : (BitVec.ofNat 32 e).toNat = e := by rw [BitVec.toNat_ofNat]; omega
  have hs : (BitVec.ofNat 32 s).toNat = s := by rw [BitVec.toNat_ofNat]; omega
  have hm := U16.slice_eq w e s h1 h2 h3
  obtain ⟨m, p⟩ := md
  cases m
  · refine (slice16_checked p w (BitVec.ofNat 32 e) (BitVec.ofNat 32 s) n).trans ?_
    rw [he, hs, hm]; rfl
  · refine (slice16_wrapping p w (BitVec.ofNat 32 e) (BitVec.ofNat 32 s) n).trans ?_
    rw [he, hs, (slice16_refines w e s).eq (by rw [hm]; nofun), hm]; rfl

/-- `to_signed_nbit` with a literal width, in both modes. -/
theorem signed32_lit (md : Build) (n : Nat) (self : Val) (x : Int) (k : Nat) (h1 : 1 ≤ k) (h2 : k ≤ 30) :
    call crate md (n + 1) .u32 .to_signed_nbit [self, .i32 x, .lit k] =
      .val (.i32 (Spec.sext k ((BitVec.ofInt 32 x).toNat % 2 ^ k))) := by
  have hk : (BitVec.ofNat 32 k).toNat = k := by rw [BitVec.toNat_ofNat]; omega
  have hm := to_signed_nbit_eq x k h1 h2
  obtain ⟨m, p⟩ := md
  cases m
  · refine (signed32_checked p self x (BitVec.ofNat 32 k) n).trans ?_
    rw [hk, hm]; rfl
  · refine (signed32_wrapping p self x (BitVec.ofNat 32 k) n).trans ?_
    rw [hk, (to_signed_nbit_refines x k).eq (by rw [hm]; nofun), hm]; rfl

theorem signed16_lit (md : Build) (n : Nat) (self : Val) (x : Int) (k : Nat) (h1 : 1 ≤ k) (h2 : k ≤ 30) :
    call crate md (n + 1) .u16 .to_signed_nbit [self, .i32 x, .lit k] =
      .val (.i32 (Spec.sext k ((BitVec.ofInt 32 x).toNat % 2 ^ k))) := by
  have hk : (BitVec.ofNat 32 k).toNat = k := by rw [BitVec.toNat_ofNat]; omega
  have hm := to_signed_nbit_eq x k h1 h2
  obtain ⟨m, p⟩ := md
  cases m
  · refine (signed16_checked p self x (BitVec.ofNat 32 k) n).trans ?_
    rw [hk, hm]; rfl
  · refine (signed16_wrapping p self x (BitVec.ofNat 32 k) n).trans ?_
    rw [hk, (to_signed_nbit_refines x k).eq (by rw [hm]; nofun), hm]; rfl

/-- The number a literal stands for. -/
def litNat : Val → Nat
  | .lit n => n
  | _ => 0

/-- A mask of literals that `set` accepts. -/
def okMask (vs : List Val) : Bool :=
  decide (vs.length ≤ 32) && vs.all fun | .lit n => decide (n < 32) | _ => false

/-- The value of `set`, where it has one. -/
def setVal : RustM (BitVec 32) → BitVec 32
  | .ok v => v
  | _ => 0

theorem setLoop_ok (x : BitVec 32) (ms : List Nat) (i : Nat) (acc : BitVec 32) (h : ∀ m ∈ ms, m < 32)
    (hi : i + ms.length ≤ 32) : ∃ v, setLoop x ms i acc = .ok v := by
  induction ms generalizing i acc with
  | nil => exact ⟨_, rfl⟩
  | cons m ms ih =>
    simp only [List.length_cons] at hi
    rw [setLoop, shrU, if_pos (by omega), RustM.bind_ok, shlU, if_pos (h m (by simp)), RustM.bind_ok]
    exact ih _ _ (fun m hm => h m (by simp [hm])) (by omega)

theorem set32_ok (x : BitVec 32) (ms : List Nat) (h : okMask (ms.map .lit) = true) :
    U32.set x ms = .ok (setVal (U32.set x ms)) := by
  simp only [okMask, List.length_map, Bool.and_eq_true, decide_eq_true_eq, List.all_map,
    List.all_eq_true, Function.comp] at h
  obtain ⟨v, hv⟩ := setLoop_ok x ms.reverse 0 0 (fun m hm => h.2 m (by simpa using hm)) (by simpa using h.1)
  have : U32.set x ms = .ok v := hv
  rw [this]; rfl

theorem set16_ok (x : BitVec 16) (ms : List Nat) (h : okMask (ms.map .lit) = true) :
    U16.set x ms = .ok (setVal (U16.set x ms)) := set32_ok (x.setWidth 32) ms h

theorem okMask_lits {vs : List Val} (h : okMask vs = true) :
    (vs.map litNat).map .lit = vs ∧
    vs.map (coerce .u32) = ((vs.map litNat).map (BitVec.ofNat 32)).map .u32 ∧
    ((vs.map litNat).map (BitVec.ofNat 32)).map BitVec.toNat = vs.map litNat := by
  simp only [okMask, Bool.and_eq_true, decide_eq_true_eq, List.all_eq_true] at h
  replace h := h.2
  induction vs with
  | nil => exact ⟨rfl, rfl, rfl⟩
  | cons v vs ih =>
    obtain ⟨i1, i2, i3⟩ := ih fun v hv => h v (by simp [hv])
    have hv := h v (by simp)
    cases v <;> simp only [Bool.false_eq_true, decide_eq_true_eq] at hv
    simp only [List.map_cons, i1, i2, i3, litNat, coerce_u32_lit, true_and, BitVec.toNat_ofNat]
    rw [Nat.mod_eq_of_lt (by omega)]

/-- `set` with a literal mask, in both modes. -/
theorem set32_lit (md : Build) (n : Nat) (x : BitVec 32) (vs : List Val) (h : okMask vs = true) :
    call crate md (n + 1) .u32 .«set» [.u32 x, .array vs] =
      .val (.u32 (setVal (U32.set x (vs.map litNat)))) := by
  obtain ⟨h1, h2, h3⟩ := okMask_lits h
  have hm := set32_ok x (vs.map litNat) (by rw [h1]; exact h)
  have ha : call crate md (n + 1) .u32 .«set» [.u32 x, .array vs] =
      call crate md (n + 1) .u32 .«set» [.u32 x, .array (((vs.map litNat).map (BitVec.ofNat 32)).map emb)] := by
    rw [call_u32_set, call_u32_set]
    simp only [run, u32_set, bindParams, coerce_array, Option.map_some]
    rw [h2, List.map_map (f := emb) (g := coerce .u32)]
    rfl
  rw [ha]
  obtain ⟨m, p⟩ := md
  cases m
  · refine (set32_checked p x _ n).trans ?_
    rw [h3, hm]; rfl
  · refine (set32_wrapping p x _ n).trans ?_
    rw [h3, (set32_refines x _).eq (by rw [hm]; nofun), hm]; rfl

theorem set16_lit (md : Build) (n : Nat) (x : BitVec 16) (vs : List Val) (h : okMask vs = true) :
    call crate md (n + 1) .u16 .«set» [.u16 x, .array vs] =
      .val (.u32 (setVal (U16.set x (vs.map litNat)))) := by
  obtain ⟨h1, h2, h3⟩ := okMask_lits h
  have hm := set16_ok x (vs.map litNat) (by rw [h1]; exact h)
  have ha : call crate md (n + 1) .u16 .«set» [.u16 x, .array vs] =
      call crate md (n + 1) .u16 .«set» [.u16 x, .array (((vs.map litNat).map (BitVec.ofNat 32)).map emb)] := by
    rw [call_u16_set, call_u16_set]
    simp only [run, u16_set, bindParams, coerce_array, Option.map_some]
    rw [h2, List.map_map (f := emb) (g := coerce .u32)]
    rfl
  rw [ha]
  obtain ⟨m, p⟩ := md
  cases m
  · refine (set16_checked p x _ n).trans ?_
    rw [h3, hm]; rfl
  · refine (set16_wrapping p x _ n).trans ?_
    rw [h3, (set16_refines x _).eq (by rw [hm]; nofun), hm]; rfl

end Raki.Source
