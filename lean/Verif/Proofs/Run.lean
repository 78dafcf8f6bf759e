import Verif.Proofs.Rdict
/-!
# Running the byte parsers on concrete shapes of input
-/
namespace Boxcars
open Spec

/-- The state with `d` unread out of `T` bytes. -/
def at_ (T : Nat) (d : Bytes) : CoreSt := ⟨d, BitVec.ofNat 32 (T - d.length)⟩

theorem at_inv {env : Env} {T : Nat} {d : Bytes} (hT : Room env T) (h : d.length ≤ T) :
    CoreInv env T (at_ T d) :=
  ⟨h, rfl, fun hc => by have := hT.2 hc; omega⟩

theorem CoreInv.eq_at {env : Env} {T : Nat} {s : CoreSt} (h : CoreInv env T s) :
    s = at_ T s.data := by
  cases s; simp only [CoreInv] at h; unfold at_; rw [h.2.1]

variable {T : Nat} {d : Bytes} {env : Env}

/-- A parser with a grammar succeeds on an input of that grammar. -/
theorem PSpec.run {α : Type} {m : P α} {g : α → Bytes → Prop} {a : α} {bs d : Bytes}
    (h : PSpec (bs ++ d).length m (ofG g)) (hT : Room env T) (hd : (bs ++ d).length ≤ T)
    (hg : g a bs) : m env (at_ T (bs ++ d)) = .ok a (at_ T d) :=
  (h.okIff T env _ hT.1 (at_inv hT hd) (Nat.le_refl _) a _).2
    ⟨⟨bs, hg, rfl⟩, at_inv hT (by rw [List.length_append] at hd; omega)⟩

theorem takeData_run {bs : Bytes} (hT : Room env T) (hd : (bs ++ d).length ≤ T)
    (hb : bs.length < 2 ^ 31) :
    takeData bs.length env (at_ T (bs ++ d)) = .ok bs (at_ T d) :=
  (PSpec.takeDataG _ (.inl hb)).run hT hd ⟨rfl, rfl⟩

theorem take32_run {x : BitVec 32} (hT : Room env T) (hd : (word x ++ d).length ≤ T) :
    take32 env (at_ T (word x ++ d)) = .ok x (at_ T d) :=
  take32_spec.run hT hd rfl

theorem takeI32_run {sec : String} {x : BitVec 32} (hT : Room env T)
    (hd : (word x ++ d).length ≤ T) :
    takeI32 sec env (at_ T (word x ++ d)) = .ok x (at_ T d) :=
  (takeI32_spec sec).run hT hd rfl

theorem takeData_short {n : Nat} (h : d.length < n) :
    takeData n env (at_ T d) = .err (.insufficientData (i32OfNat n) (i32OfNat d.length)) (at_ T d) := by
  unfold takeData
  rw [if_neg (by simp only [at_]; omega)]
  rfl

theorem take32_short (h : d.length < 4) :
    take32 env (at_ T d) = .err (.insufficientData 4 (i32OfNat d.length)) (at_ T d) := by
  unfold take32 take
  simp only [bind, P.bind]
  rw [takeData_short h]
  rfl

theorem parseStr_run {n : I32} {body : Bytes} (hT : Room env T)
    (hd : (word n ++ (body ++ d)).length ≤ T) (hn : 0 ≤ n.toInt) (hb : body.length = n.toNat) :
    parseStr env (at_ T (word n ++ (body ++ d))) =
      match decodeStr body with
      | .ok s => .ok s (at_ T d)
      | .error e => .err (.utf8Error e) (at_ T d) := by
  unfold parseStr
  simp only [bind, P.bind]
  rw [take32_run hT hd]
  simp only [P.usize]
  rw [PSpec.usizeOfI32_nonneg env n hn, ← hb, takeData_run hT (by simp at hd ⊢; omega)
    (by rw [hb]; exact PSpec.toNat_lt_of_nonneg hn)]
  simp only
  cases decodeStr body <;> rfl

theorem parseStr_short {n : I32} (hT : Room env T)
    (hd : (word n ++ d).length ≤ T) (hn : n.toInt < 0 ∨ d.length < n.toNat) :
    ∃ want, parseStr env (at_ T (word n ++ d)) =
      .err (.insufficientData want (i32OfNat d.length)) (at_ T d) := by
  unfold parseStr
  simp only [bind, P.bind]
  rw [take32_run hT hd]
  simp only [P.usize]
  have : d.length < env.usizeOfI32 n := by
    rcases hn with h | h
    · have := PSpec.usizeOfI32_big env n h
      have := hT.1
      rw [List.length_append] at hd
      omega
    · by_cases h0 : 0 ≤ n.toInt
      · rwa [PSpec.usizeOfI32_nonneg env n h0]
      · have := PSpec.usizeOfI32_big env n (by omega)
        have := hT.1
        rw [List.length_append] at hd
        omega
  rw [takeData_short this]
  exact ⟨_, rfl⟩

end Boxcars
