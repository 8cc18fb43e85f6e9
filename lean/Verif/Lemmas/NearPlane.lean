import Verif.Lemmas.NearRun
import Mathlib.Analysis.SpecialFunctions.Trigonometric.Bounds

set_option autoImplicit false
set_option exponentiation.threshold 2000

/-!
# The rounding errors of the plane wave
-/

namespace QED

open Dbl F64

namespace Near

theorem cos_dist (a b : ℝ) : |Real.cos a - Real.cos b| ≤ |a - b| := by
  rw [Real.cos_sub_cos, abs_mul, abs_mul]
  have h1 := Real.abs_sin_le_one ((a + b) / 2)
  have h2 := Real.abs_sin_le_abs (x := (a - b) / 2)
  rw [abs_div, abs_of_pos (by norm_num : (0 : ℝ) < 2)] at h2
  have : |(-2 : ℝ)| * |Real.sin ((a + b) / 2)| * |Real.sin ((a - b) / 2)| ≤ 2 * 1 * (|a - b| / 2) := by
    rw [abs_neg, abs_of_pos (by norm_num : (0 : ℝ) < 2)]
    exact mul_le_mul (mul_le_mul_of_nonneg_left h1 (by norm_num)) h2 (abs_nonneg _) (by norm_num)
  linarith

theorem sin_dist (a b : ℝ) : |Real.sin a - Real.sin b| ≤ |a - b| := by
  have := cos_dist (Real.pi / 2 - a) (Real.pi / 2 - b)
  rw [Real.cos_pi_div_two_sub, Real.cos_pi_div_two_sub] at this
  have e : Real.pi / 2 - a - (Real.pi / 2 - b) = -(a - b) := by ring
  rwa [e, abs_neg] at this

theorem cosine {a : F64} {x e : ℝ} (h : Near a x e) (he : 100 * e ≤ 1) :
    Near (Dbl.cos a) (Real.cos x) (e + 11 / 10 / 9007199254740992 * 1) := by
  obtain ⟨v, hv, h⟩ := h
  refine rounded (v := Real.cos v) (fun hl => ?_) ((cos_dist v x).trans h) (Real.abs_cos_le_one x) he
    (Ok.num (by norm_num) (by norm_num))
  show F64.rnd (Dbl.cos a.1) = _
  rw [hv, XR.cos_fin]
  exact F64.rnd_fin hl

theorem sine {a : F64} {x e : ℝ} (h : Near a x e) (he : 100 * e ≤ 1) :
    Near (Dbl.sin a) (Real.sin x) (e + 11 / 10 / 9007199254740992 * 1) := by
  obtain ⟨v, hv, h⟩ := h
  refine rounded (v := Real.sin v) (fun hl => ?_) ((sin_dist v x).trans h) (Real.abs_sin_le_one x) he
    (Ok.num (by norm_num) (by norm_num))
  show F64.rnd (Dbl.sin a.1) = _
  rw [hv, XR.sin_fin]
  exact F64.rnd_fin hl

/-- A row of a matrix times a vector. -/
theorem row {a b c x' y' z' : F64} {A B C x y z δ X : ℝ} (ha : a.1 = .fin A) (hb : b.1 = .fin B) (hc : c.1 = .fin C)
    (hA : |A| ≤ 1) (hB : |B| ≤ 1) (hC : |C| ≤ 1) (hx : Near x' x δ) (hy : Near y' y δ) (hz : Near z' z δ)
    (bx : |x| ≤ X) (by' : |y| ≤ X) (bz : |z| ≤ X) (hδ : 1000 * δ ≤ X) (mX : Mid X) :
    Near (M3.acc3 a x' b y' c z') (M3.acc3 A x B y C z) (3 * δ + 10 / 9007199254740992 * X) := by
  have δ0 := hx.nonneg
  have X0 := mX.pos
  have ok1 : Ok (1 * X) := mX.ok (by norm_num) (by norm_num)
  have ok2 : Ok (2 * X) := mX.ok (by norm_num) (by norm_num)
  have ok3 : Ok (3 * X) := mX.ok (by norm_num) (by norm_num)
  have prod : ∀ {p q : ℝ}, |p| ≤ 1 → |q| ≤ X → |p * q| ≤ X := by
    intro p q hp hq
    rw [abs_mul]
    calc |p| * |q| ≤ 1 * X := mul_le_mul hp hq (abs_nonneg _) (by norm_num)
      _ = X := one_mul X
  have p1 := (of_val ha).mul hx hA bx (by norm_num) hδ ok1
  have p2 := (of_val hb).mul hy hB by' (by norm_num) hδ ok1
  have p3 := (of_val hc).mul hz hC bz (by norm_num) hδ ok1
  have t1 := prod hA bx
  have t2 := prod hB by'
  have t3 := prod hC bz
  have z0 : (lit 0 : ℝ) = 0 := by simp
  have s1 := (of_val zero_val).add p1 (s := 1 * X) (by rw [zero_add]; linarith) (by linarith) ok1
  have s2 := s1.add p2 (s := 2 * X) (by rw [zero_add]; linarith [abs_add_le (A * x) (B * y)]) (by linarith) ok2
  have s3 := s2.add p3 (s := 3 * X) (by
    rw [zero_add]
    linarith [abs_add_le (A * x) (B * y), abs_add_le (A * x + B * y) (C * z)]) (by linarith) ok3
  show Near _ (lit 0 + A * x + B * y + C * z) _
  rw [z0]
  refine s3.weaken ?_
  linarith

theorem row_le {A B C x y z X : ℝ} (hA : |A| ≤ 1) (hB : |B| ≤ 1) (hC : |C| ≤ 1)
    (bx : |x| ≤ X) (by' : |y| ≤ X) (bz : |z| ≤ X) : |(M3.acc3 A x B y C z : ℝ)| ≤ 3 * X := by
  have prod : ∀ {p q : ℝ}, |p| ≤ 1 → |q| ≤ X → |p * q| ≤ X := by
    intro p q hp hq
    rw [abs_mul]
    calc |p| * |q| ≤ 1 * X := mul_le_mul hp hq (abs_nonneg _) (by norm_num)
      _ = X := one_mul X
  have t1 := prod hA bx
  have t2 := prod hB by'
  have t3 := prod hC bz
  have z0 : (lit 0 : ℝ) = 0 := by simp
  show |lit 0 + A * x + B * y + C * z| ≤ _
  rw [z0, zero_add]
  linarith [abs_add_le (A * x) (B * y), abs_add_le (A * x + B * y) (C * z)]

theorem rows {m' : M3 F64} {m : M3 ℝ} {v' : V3 F64} {v : V3 ℝ} {δ X : ℝ} (hm : m'.Same m) (hu : m.Unit)
    (hv : v'.Close v δ) (bv : Bounded v X) (hδ : 1000 * δ ≤ X) (mX : Mid X) :
    (m'.mulVec v').Close (m.mulVec v) (3 * δ + 10 / 9007199254740992 * X) := by
  obtain ⟨⟨a0, a1, a2⟩, ⟨b0, b1, b2⟩, c0, c1, c2⟩ := hm
  obtain ⟨⟨d0, d1, d2⟩, ⟨e0, e1, e2⟩, f0, f1, f2⟩ := hu
  obtain ⟨x, y, z⟩ := hv
  obtain ⟨bx, by', bz⟩ := bv
  exact ⟨row a0 a1 a2 d0 d1 d2 x y z bx by' bz hδ mX, row b0 b1 b2 e0 e1 e2 x y z bx by' bz hδ mX,
    row c0 c1 c2 f0 f1 f2 x y z bx by' bz hδ mX⟩

theorem rows_le {m : M3 ℝ} {v : V3 ℝ} {X : ℝ} (hu : m.Unit) (bv : Bounded v X) : Bounded (m.mulVec v) (3 * X) := by
  obtain ⟨⟨d0, d1, d2⟩, ⟨e0, e1, e2⟩, f0, f1, f2⟩ := hu
  obtain ⟨bx, by', bz⟩ := bv
  exact ⟨row_le d0 d1 d2 bx by' bz, row_le e0 e1 e2 bx by' bz, row_le f0 f1 f2 bx by' bz⟩

theorem rows_sub (m : M3 ℝ) (v w : V3 ℝ) : (m.mulVec v).sub (m.mulVec w) = m.mulVec (v.sub w) := by
  have z0 : (lit 0 : ℝ) = 0 := by simp
  show V3.mk _ _ _ = V3.mk _ _ _
  simp only [M3.mulVec, M3.acc3, V3.sub, real_add, real_sub, real_mul, z0]
  congr 1 <;> ring

theorem rows_le' {m : M3 ℝ} {a b X : ℝ} (hu : m.Unit) (ha : |a| ≤ X) (hb : |b| ≤ X) :
    Bounded (m.mulVec ⟨a, b, (lit 0 : ℝ)⟩) (2 * X) := by
  have z0 : (lit 0 : ℝ) = 0 := by simp
  have key : ∀ {A B C : ℝ}, |A| ≤ 1 → |B| ≤ 1 → |(M3.acc3 A a B b C (lit 0) : ℝ)| ≤ 2 * X := by
    intro A B C hA hB
    show |lit 0 + A * a + B * b + C * lit 0| ≤ _
    rw [z0, zero_add, mul_zero, add_zero]
    have h1 : |A * a| ≤ 1 * X := by rw [abs_mul]; exact mul_le_mul hA ha (abs_nonneg _) (by norm_num)
    have h2 : |B * b| ≤ 1 * X := by rw [abs_mul]; exact mul_le_mul hB hb (abs_nonneg _) (by norm_num)
    linarith [abs_add_le (A * a) (B * b)]
  obtain ⟨⟨d0, d1, d2⟩, ⟨e0, e1, e2⟩, f0, f1, f2⟩ := hu
  exact ⟨key d0 d1, key e0 e1, key f0 f1⟩

theorem times_unit {a c A : ℝ} (ha : |a| ≤ A) (hc : |c| ≤ 1) : |a * c| ≤ A := by
  rw [abs_mul]
  calc |a| * |c| ≤ A * 1 := mul_le_mul ha hc (abs_nonneg _) ((abs_nonneg _).trans ha)
    _ = A := mul_one A

theorem amplitude_le (f : PlaneField ℝ) (t : ℝ) (x : V3 ℝ) : |f.amplitude t x| ≤ |f.maxE| := by
  show |f.maxE * Real.cos _| ≤ _
  exact times_unit le_rfl (Real.abs_cos_le_one _)

theorem plane_bounded {f : PlaneField ℝ} (hu : f.rotationInv.Unit) (t : ℝ) (x : V3 ℝ) :
    Bounded (f.getField t x).1 (2 * |f.maxE|) ∧ Bounded (f.getField t x).2 (2 * |f.maxE|) := by
  have h := amplitude_le f t x
  have hc := times_unit h (Real.abs_cos_le_one f.polAngle)
  have hs := times_unit h (Real.abs_sin_le_one f.polAngle)
  exact ⟨rows_le' hu hc hs, rows_le' hu hs hc⟩

theorem plane_slowly {f : PlaneField ℝ} (hr : f.rotation.Unit) (hu : f.rotationInv.Unit) :
    Field.Slowly f.getField (8 * |f.maxE| * |f.waveNum|) := by
  intro s t d x y ht hx
  have d0 : 0 ≤ d := (abs_nonneg _).trans ht
  have hz := (rows_le hr hx).2.2
  rw [← rows_sub] at hz
  have amp : |f.amplitude s x - f.amplitude t y| ≤ 4 * |f.maxE| * |f.waveNum| * d := by
    show |f.maxE * Real.cos (((f.rotation.mulVec x).z - s) * f.waveNum)
      - f.maxE * Real.cos (((f.rotation.mulVec y).z - t) * f.waveNum)| ≤ _
    rw [← mul_sub, abs_mul]
    have h1 := cos_dist (((f.rotation.mulVec x).z - s) * f.waveNum) (((f.rotation.mulVec y).z - t) * f.waveNum)
    rw [← sub_mul, abs_mul] at h1
    have h2 : |(f.rotation.mulVec x).z - s - ((f.rotation.mulVec y).z - t)| ≤ 4 * d := by
      have e : (f.rotation.mulVec x).z - s - ((f.rotation.mulVec y).z - t) =
        ((f.rotation.mulVec x).z - (f.rotation.mulVec y).z) - (s - t) := by ring
      rw [e]
      have h3 : |(f.rotation.mulVec x).z - (f.rotation.mulVec y).z| ≤ 3 * d := hz
      linarith [abs_sub ((f.rotation.mulVec x).z - (f.rotation.mulVec y).z) (s - t)]
    have h4 := mul_le_mul_of_nonneg_right h2 (abs_nonneg f.waveNum)
    have h5 := mul_le_mul_of_nonneg_left (h1.trans h4) (abs_nonneg f.maxE)
    linarith
  have hc := times_unit amp (Real.abs_cos_le_one f.polAngle)
  have hs := times_unit amp (Real.abs_sin_le_one f.polAngle)
  have eq : ∀ c c' : ℝ, (f.rotationInv.mulVec ⟨f.amplitude s x *. c, f.amplitude s x *. c', (lit 0 : ℝ)⟩).sub
      (f.rotationInv.mulVec ⟨f.amplitude t y *. c, f.amplitude t y *. c', (lit 0 : ℝ)⟩) =
      f.rotationInv.mulVec ⟨(f.amplitude s x - f.amplitude t y) * c, (f.amplitude s x - f.amplitude t y) * c',
        (lit 0 : ℝ)⟩ := by
    intro c c'
    rw [rows_sub]
    simp [V3.sub, sub_mul]
  have e : 8 * |f.maxE| * |f.waveNum| * d = 2 * (4 * |f.maxE| * |f.waveNum| * d) := by ring
  rw [e]
  constructor
  · have := rows_le' hu hc hs
    rw [← eq] at this
    exact this
  · have := rows_le' hu hs hc
    rw [← eq] at this
    exact this

/-- The plane wave as computed. -/
theorem plane_follows {f' : PlaneField F64} {f : PlaneField ℝ} {A K X δ : ℝ} (h : f'.Same f) (hr : f.rotation.Unit)
    (hu : f.rotationInv.Unit) (hA : |f.maxE| ≤ A) (hK : |f.waveNum| ≤ K) (δ0 : 0 ≤ δ) (hδ : 2000 * δ ≤ X)
    (mA : Mid A) (mK : Mid K) (mX : Mid X)
    (hp : 10000 * (K * (4 * δ + 19 / 9007199254740992 * X)) ≤ 1) :
    Field.Follows f'.getField f.getField X δ
      (A * (13 * K * δ + 60 / 9007199254740992 * (K * X) + 24 / 9007199254740992)) := by
  intro t' x' t x bt bx ht hx
  have X0 := mX.pos
  have A0 := mA.pos
  have K0 := mK.pos
  have ok4 : Ok (4 * X) := mX.ok (by norm_num) (by norm_num)
  have okP : Ok (4 * X * K) := by
    have := mX.ok_mul mK (c := 4) (by norm_num) (by norm_num)
    rwa [← mul_assoc] at this
  have okA : Ok (A * 1) := by
    have := mA.ok (c := 1) (by norm_num) (by norm_num)
    rwa [one_mul, ← mul_one A] at this
  have KX := mul_pos K0 X0
  have Kδ := mul_nonneg K0.le δ0
  have z := (rows h.rotation hr hx bx (by linarith) mX).2.2
  have bz := (rows_le hr bx).2.2
  have d := z.sub ht (s := 4 * X) (by linarith [abs_sub (f.rotation.mulVec x).z t]) (by linarith) ok4
  have p := d.mul (of_val h.waveNum) (r := 4 * X) (q := K) (by linarith [abs_sub (f.rotation.mulVec x).z t]) hK
    (by linarith) (by linarith) okP
  have p' := p.weaken (show _ ≤ K * (4 * δ + 19 / 9007199254740992 * X) by linarith)
  generalize hψ : K * (4 * δ + 19 / 9007199254740992 * X) = ψ at p' hp
  have ψ0 : 0 ≤ ψ := p'.nonneg
  have c := cosine p' (by linarith)
  have a := (of_val h.maxE).mul c hA (Real.abs_cos_le_one _) (by linarith) (by linarith) okA
  have Aψ := mul_nonneg A0.le ψ0
  have Aψ' : 10000 * (A * ψ) ≤ A * 1 := by
    have := mul_le_mul_of_nonneg_left hp A0.le
    linarith
  have a' : Near (f'.amplitude t' x') (f.amplitude t x) (A * ψ + 23 / 10 / 9007199254740992 * A) :=
    a.weaken (by linarith)
  have pc := cosine (of_val h.polAngle) (by norm_num)
  have ps := sine (of_val h.polAngle) (by norm_num)
  have ba := (amplitude_le f t x).trans hA
  have ec := a'.mul pc ba (Real.abs_cos_le_one _) (by linarith) (by norm_num) okA
  have es := a'.mul ps ba (Real.abs_sin_le_one _) (by linarith) (by norm_num) okA
  have ec' := ec.weaken (show _ ≤ 1001 / 1000 * (A * ψ) + 46 / 10 / 9007199254740992 * A by linarith)
  have es' := es.weaken (show _ ≤ 1001 / 1000 * (A * ψ) + 46 / 10 / 9007199254740992 * A by linarith)
  have z0 : (lit 0 : ℝ) = 0 := by simp
  have ez : Near (lit 0 : F64) (lit 0 : ℝ) (1001 / 1000 * (A * ψ) + 46 / 10 / 9007199254740992 * A) := by
    rw [z0]
    exact (of_val zero_val).weaken (by linarith)
  have bc := times_unit ba (Real.abs_cos_le_one f.polAngle)
  have bs := times_unit ba (Real.abs_sin_le_one f.polAngle)
  have b0 : |(lit 0 : ℝ)| ≤ A := by rw [z0, abs_zero]; exact A0.le
  have fin : 3 * (1001 / 1000 * (A * ψ) + 46 / 10 / 9007199254740992 * A) + 10 / 9007199254740992 * A ≤
      A * (13 * K * δ + 60 / 9007199254740992 * (K * X) + 24 / 9007199254740992) := by
    rw [← hψ]
    have h1 := mul_pos A0 KX
    have h2 := mul_nonneg A0.le Kδ
    linarith
  exact ⟨close_weaken (rows h.rotationInv hu ⟨ec', es', ez⟩ ⟨bc, bs, b0⟩ (by linarith) mA) fin,
    close_weaken (rows h.rotationInv hu ⟨es', ec', ez⟩ ⟨bs, bc, b0⟩ (by linarith) mA) fin⟩

end Near

end QED
