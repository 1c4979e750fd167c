import Verif.Lemmas.BallContacts
import Verif.Props.Portal
/-!
# Lemmas: the parts of the contact list, static geometry, images
-/

namespace Scisim

/-! ## Plumbing: the parts of the contact list -/

theorem ballPairs_append (t : Bool) (a b : List Contact) : ballPairs t (a ++ b) = ballPairs t a ++ ballPairs t b := by
  simp [ballPairs, List.filterMap_append]
theorem planePairs_append (a b : List Contact) : planePairs (a ++ b) = planePairs a ++ planePairs b := by
  simp [planePairs, List.filterMap_append]
theorem drumPairs_append (a b : List Contact) : drumPairs (a ++ b) = drumPairs a ++ drumPairs b := by
  simp [drumPairs, List.filterMap_append]

theorem drumContacts_form {bs : List BallStep} {ds : List Drum} {c : Contact} (h : c ∈ drumContacts bs ds) :
    ∃ b n d, c = .drum b n d := by
  simp only [drumContacts, List.mem_flatMap, List.mem_filterMap] at h
  obtain ⟨⟨d, di⟩, _, ⟨b, bi⟩, _, h⟩ := h
  split at h
  · cases h; exact ⟨_, _, _, rfl⟩
  · cases h

theorem planeContacts_form {bs : List BallStep} {ps : List (HalfPlane ℝ)} {c : Contact} (h : c ∈ planeContacts bs ps) :
    ∃ b n d, c = .plane b n d := by
  simp only [planeContacts, List.mem_flatMap, List.mem_filterMap] at h
  obtain ⟨⟨d, di⟩, _, ⟨b, bi⟩, _, h⟩ := h
  split at h
  · cases h; exact ⟨_, _, _, rfl⟩
  · cases h

theorem ballPairs_drum (t : Bool) (bs : List BallStep) (ds : List Drum) : ballPairs t (drumContacts bs ds) = [] := by
  unfold ballPairs
  rw [List.filterMap_eq_nil_iff]
  intro c hc
  obtain ⟨_, _, _, rfl⟩ := drumContacts_form hc
  rfl
theorem ballPairs_plane (t : Bool) (bs : List BallStep) (ds : List (HalfPlane ℝ)) : ballPairs t (planeContacts bs ds) = [] := by
  unfold ballPairs
  rw [List.filterMap_eq_nil_iff]
  intro c hc
  obtain ⟨_, _, _, rfl⟩ := planeContacts_form hc
  rfl
theorem planePairs_drum (bs : List BallStep) (ds : List Drum) : planePairs (drumContacts bs ds) = [] := by
  unfold planePairs
  rw [List.filterMap_eq_nil_iff]
  intro c hc
  obtain ⟨_, _, _, rfl⟩ := drumContacts_form hc
  rfl
theorem drumPairs_plane (bs : List BallStep) (ds : List (HalfPlane ℝ)) : drumPairs (planeContacts bs ds) = [] := by
  unfold drumPairs
  rw [List.filterMap_eq_nil_iff]
  intro c hc
  obtain ⟨_, _, _, rfl⟩ := planeContacts_form hc
  rfl

theorem filterMap_zipIdx_nodup {α β : Type} (l : List α) (f : α × Nat → Option β) (g : β → Nat) (hg : ∀ a i b, f (a, i) = some b → g b = i) :
    (l.zipIdx.filterMap f).Nodup := by
  have h : l.zipIdx.Pairwise fun a b => a.2 ≠ b.2 := by
    have : (l.zipIdx.map Prod.snd).Nodup := by rw [List.zipIdx_map_snd]; exact List.nodup_range'
    exact List.pairwise_map.mp this
  unfold List.Nodup
  refine List.Pairwise.filterMap (S := (· ≠ ·)) f (R := fun a b => a.2 ≠ b.2) ?_ h
  rintro ⟨a, i⟩ ⟨a', j⟩ hij b hb b' hb' rfl
  exact hij ((hg a i b hb).symm.trans (hg a' j b hb'))

theorem flatMap_zipIdx_nodup {α β : Type} (l : List α) (f : α × Nat → List β) (g : β → Nat) (hf : ∀ a, (f a).Nodup)
    (hg : ∀ a i, ∀ b ∈ f (a, i), g b = i) : (l.zipIdx.flatMap f).Nodup := by
  have h : l.zipIdx.Pairwise fun a b => a.2 ≠ b.2 := by
    have : (l.zipIdx.map Prod.snd).Nodup := by rw [List.zipIdx_map_snd]; exact List.nodup_range'
    exact List.pairwise_map.mp this
  rw [List.nodup_flatMap]
  refine ⟨fun a _ => hf a, h.imp ?_⟩
  rintro ⟨a, i⟩ ⟨a', j⟩ hij b hb hb'
  exact hij ((hg a i b hb).symm.trans (hg a' j b hb'))

theorem planePairs_eq (bs : List BallStep) (ps : List (HalfPlane ℝ)) : planePairs (planeContacts bs ps) =
    ps.zipIdx.flatMap fun p => bs.zipIdx.filterMap fun b => if planeIsActive b.1.q1 b.1.r p.1 then some (b.2, p.2) else none := by
  unfold planePairs planeContacts
  rw [List.filterMap_flatMap]
  congr 1
  funext ⟨p, pi⟩
  rw [List.filterMap_filterMap]
  congr 1
  funext ⟨b, bi⟩
  simp only
  split <;> rfl

theorem drumPairs_eq (bs : List BallStep) (ps : List Drum) : drumPairs (drumContacts bs ps) =
    ps.zipIdx.flatMap fun p => bs.zipIdx.filterMap fun b => if drumIsActive b.1.q1 b.1.r p.1 then some (b.2, p.2) else none := by
  unfold drumPairs drumContacts
  rw [List.filterMap_flatMap]
  congr 1
  funext ⟨p, pi⟩
  rw [List.filterMap_filterMap]
  congr 1
  funext ⟨b, bi⟩
  simp only
  split <;> rfl

theorem mem_pairs {α : Type} (bs : List BallStep) (ps : List α) (act : BallStep → α → Bool) (i k : Nat) :
    (i, k) ∈ (ps.zipIdx.flatMap fun p => bs.zipIdx.filterMap fun b => if act b.1 p.1 then some (b.2, p.2) else none) ↔
      ∃ b p, bs[i]? = some b ∧ ps[k]? = some p ∧ act b p = true := by
  simp only [List.mem_flatMap, List.mem_filterMap]
  constructor
  · rintro ⟨⟨p, k'⟩, hp, ⟨b, i'⟩, hb, h⟩
    rw [List.mk_mem_zipIdx_iff_getElem?] at hp hb
    split at h
    · cases h; exact ⟨b, p, hb, hp, by assumption⟩
    · cases h
  · rintro ⟨b, p, hb, hp, h⟩
    exact ⟨(p, k), List.mk_mem_zipIdx_iff_getElem?.mpr hp, (b, i), List.mk_mem_zipIdx_iff_getElem?.mpr hb, by simp [h]⟩

theorem pairs_nodup {α : Type} (bs : List BallStep) (ps : List α) (act : BallStep → α → Bool) :
    (ps.zipIdx.flatMap fun p => bs.zipIdx.filterMap fun b => if act b.1 p.1 then some (b.2, p.2) else none).Nodup := by
  refine flatMap_zipIdx_nodup ps _ Prod.snd (fun p => filterMap_zipIdx_nodup bs _ Prod.fst ?_) ?_
  · intro a i b h
    split at h
    · cases h; rfl
    · cases h
  · intro a i b h
    simp only [List.mem_filterMap] at h
    obtain ⟨_, _, h⟩ := h
    split at h
    · cases h; rfl
    · cases h

/-! ## Geometry of the static objects -/

theorem planeIsActive_iff (b : BallStep) (p : HalfPlane ℝ) (hf : p.n.x ^ 2 + p.n.y ^ 2 = 1) (hr : 0 ≤ b.r) :
    planeIsActive b.q1 b.r p = true ↔ MeetsSolid b p := by
  unfold planeIsActive MeetsSolid InDisc distSq HalfPlane.height
  rw [decide_eq_true_iff]
  simp only [V2.dot, V2.sub_x, V2.sub_y]
  constructor
  · intro h
    refine ⟨⟨b.q1.x - b.r * p.n.x, b.q1.y - b.r * p.n.y⟩, ?_, ?_⟩
    · simp only
      have : (b.q1.x - b.r * p.n.x - b.q1.x) ^ 2 + (b.q1.y - b.r * p.n.y - b.q1.y) ^ 2 = b.r ^ 2 * (p.n.x ^ 2 + p.n.y ^ 2) := by ring
      rw [this, hf]; linarith
    · simp only
      have : p.n.x * (b.q1.x - b.r * p.n.x - p.x.x) + p.n.y * (b.q1.y - b.r * p.n.y - p.x.y) =
          p.n.x * (b.q1.x - p.x.x) + p.n.y * (b.q1.y - p.x.y) - b.r * (p.n.x ^ 2 + p.n.y ^ 2) := by ring
      rw [this, hf]; linarith
  · rintro ⟨x, hx, hh⟩
    have hd : (p.n.x * (b.q1.x - x.x) + p.n.y * (b.q1.y - x.y)) ^ 2 ≤ b.r ^ 2 := by
      have : (p.n.x * (b.q1.x - x.x) + p.n.y * (b.q1.y - x.y)) ^ 2 + (p.n.x * (b.q1.y - x.y) - p.n.y * (b.q1.x - x.x)) ^ 2 =
          (p.n.x ^ 2 + p.n.y ^ 2) * ((x.x - b.q1.x) ^ 2 + (x.y - b.q1.y) ^ 2) := by ring
      rw [hf] at this
      nlinarith [sq_nonneg (p.n.x * (b.q1.y - x.y) - p.n.y * (b.q1.x - x.x))]
    have := abs_le_of_sq_le_sq' hd hr
    linarith [this.2]

theorem drumIsActive_iff (b : BallStep) (d : Drum) (hr : 0 ≤ b.r) (hR : b.r ≤ d.r) :
    drumIsActive b.q1 b.r d = true ↔ MeetsOutside b d := by
  unfold drumIsActive MeetsOutside
  rw [decide_eq_true_iff, normSq_sub]
  set e := distSq d.x b.q1 with he
  have he0 : 0 ≤ e := by rw [he]; unfold distSq; positivity
  constructor
  · intro h
    -- the point of the disc farthest from the centre of the drum
    set s := Real.sqrt e with hs
    have hs2 : s ^ 2 = e := Real.sq_sqrt he0
    have hs0 : 0 ≤ s := Real.sqrt_nonneg _
    have hsr : d.r - b.r ≤ s := by
      refine (pow_le_pow_iff_left₀ (sub_nonneg.mpr hR) hs0 two_ne_zero).mp ?_
      rw [hs2, sq]; exact h
    rcases eq_or_lt_of_le hs0 with h0 | h0
    · refine ⟨⟨b.q1.x + b.r, b.q1.y⟩, ?_, ?_⟩
      · unfold InDisc distSq; simp
      · have hz : e = 0 := by rw [← hs2, ← h0]; norm_num
        rw [he] at hz
        unfold distSq at hz ⊢
        have hx : d.x.x - b.q1.x = 0 := by nlinarith [sq_nonneg (d.x.x - b.q1.x), sq_nonneg (d.x.y - b.q1.y)]
        have hy : d.x.y - b.q1.y = 0 := by nlinarith [sq_nonneg (d.x.x - b.q1.x), sq_nonneg (d.x.y - b.q1.y)]
        have : (b.q1.x + b.r - d.x.x) = b.r := by linarith
        have h2 : (b.q1.y - d.x.y) = 0 := by linarith
        simp only [this, h2]
        nlinarith
    · refine ⟨⟨b.q1.x + b.r / s * (b.q1.x - d.x.x), b.q1.y + b.r / s * (b.q1.y - d.x.y)⟩, ?_, ?_⟩
      · unfold InDisc distSq
        simp only
        have : (b.q1.x + b.r / s * (b.q1.x - d.x.x) - b.q1.x) ^ 2 + (b.q1.y + b.r / s * (b.q1.y - d.x.y) - b.q1.y) ^ 2 =
            (b.r / s) ^ 2 * e := by rw [he]; unfold distSq; ring
        rw [this, ← hs2, ← mul_pow, div_mul_cancel₀ _ h0.ne']
      · unfold distSq
        simp only
        have : (b.q1.x + b.r / s * (b.q1.x - d.x.x) - d.x.x) ^ 2 + (b.q1.y + b.r / s * (b.q1.y - d.x.y) - d.x.y) ^ 2 =
            ((1 + b.r / s) * s) ^ 2 := by rw [mul_pow, hs2, he]; unfold distSq; ring
        rw [this]
        have h3 : (1 + b.r / s) * s = s + b.r := by field_simp
        rw [h3]
        nlinarith
  · rintro ⟨x, hx, ho⟩
    by_contra hlt
    push Not at hlt
    -- the disc lies strictly inside the drum
    have hpos : 0 < d.r - b.r := by
      rcases (sub_nonneg.mpr hR).eq_or_lt with h | h
      · rw [← h] at hlt; nlinarith
      · exact h
    set s := Real.sqrt e with hs
    have hs2 : s ^ 2 = e := Real.sq_sqrt he0
    have hs0 : 0 ≤ s := Real.sqrt_nonneg _
    have hsr : s < d.r - b.r := by
      by_contra h; push Not at h; nlinarith
    have hee : (b.q1.x - d.x.x) ^ 2 + (b.q1.y - d.x.y) ^ 2 = s ^ 2 := by rw [hs2, he]; unfold distSq; ring
    have hdot := dot_le_of_sq hr hs0 hx hee.le
    unfold InDisc distSq at hx
    unfold distSq at ho
    have : d.r ^ 2 ≤ (b.r + s) ^ 2 := by nlinarith
    nlinarith

/-! ## Balls seen through portals -/

theorem touches_ok {p : PlanarPortal ℝ} {x : V2 ℝ} {r : ℝ} {o : Option Bool} (h : ballTouchesPortal p x r = .ok o) :
    ¬(p.planeA.height x ≤ r ∧ p.planeB.height x ≤ r) ∧ (o = some false ↔ p.planeA.height x ≤ r) ∧ (o = some true ↔ p.planeB.height x ≤ r) := by
  unfold ballTouchesPortal HalfPlane.distanceLessThanOrEqualZero at h
  have hh : ∀ q : HalfPlane ℝ, q.n.dot (x - q.x) = q.height x := fun q => by simp [V2.dot, HalfPlane.height]
  rw [hh, hh] at h
  by_cases h1 : p.planeA.height x ≤ r <;> by_cases h2 : p.planeB.height x ≤ r <;> simp [h1, h2] at h <;> subst h <;> simp [h1, h2]

theorem mem_teleportedOf {junk : ℝ → ℤ} {prtl : Nat} {p : PlanarPortal ℝ} {idx : Nat} {bs : List BallStep} {l : List (TeleportedBall × Box 2 ℝ)}
    (h : teleportedOf junk prtl p idx bs = .ok l) (e : TeleportedBall × Box 2 ℝ) :
    e ∈ l ↔ ∃ k b, bs[k]? = some b ∧ e.1.body = idx + k ∧ e.1.portal = prtl ∧ ballTouchesPortal p b.q1 b.r = .ok (some e.1.plane) ∧
      e.2 = boxAround (p.teleportBall junk b.q1 b.r) b.r := by
  induction bs generalizing idx l with
  | nil => cases h; simp
  | cons b bs ih =>
    unfold teleportedOf at h
    obtain ⟨o, ho, h⟩ := Outcome.bind_ok_iff.mp h
    obtain ⟨rest, hr, h⟩ := Outcome.bind_ok_iff.mp h
    have key := ih hr
    have hsucc : (∃ k c, (b :: bs)[k]? = some c ∧ e.1.body = idx + k ∧ e.1.portal = prtl ∧
        ballTouchesPortal p c.q1 c.r = .ok (some e.1.plane) ∧ e.2 = boxAround (p.teleportBall junk c.q1 c.r) c.r) ↔
        (e.1.body = idx ∧ e.1.portal = prtl ∧ ballTouchesPortal p b.q1 b.r = .ok (some e.1.plane) ∧
          e.2 = boxAround (p.teleportBall junk b.q1 b.r) b.r) ∨ e ∈ rest := by
      rw [key]
      constructor
      · rintro ⟨k, c, hk, h1, h2⟩
        cases k with
        | zero => cases hk; exact Or.inl ⟨h1, h2⟩
        | succ k => exact Or.inr ⟨k, c, by simpa using hk, by omega, h2⟩
      · rintro (h | ⟨k, c, hk, h1, h2⟩)
        · exact ⟨0, b, rfl, h⟩
        · exact ⟨k + 1, c, by simpa using hk, by omega, h2⟩
    rw [hsucc]
    cases o with
    | none =>
      cases h
      constructor
      · exact Or.inr
      · rintro (⟨_, _, h, _⟩ | h)
        · rw [ho] at h; cases h
        · exact h
    | some pl =>
      cases h
      rw [List.mem_cons]
      constructor
      · rintro (h | h)
        · subst h; exact Or.inl ⟨rfl, rfl, ho, rfl⟩
        · exact Or.inr h
      · rintro (⟨h1, h2, h3, h4⟩ | h)
        · left
          rw [ho] at h3
          cases h3
          obtain ⟨⟨_, _, _⟩, _⟩ := e
          simp only at h1 h2 h4
          subst h1; subst h2; subst h4
          rfl
        · exact Or.inr h

theorem mem_teleportedBalls {junk : ℝ → ℤ} {bs : List BallStep} {idx : Nat} {ps : List (PlanarPortal ℝ)} {l : List (TeleportedBall × Box 2 ℝ)}
    (h : teleportedBalls junk bs idx ps = .ok l) (e : TeleportedBall × Box 2 ℝ) :
    e ∈ l ↔ ∃ m p b, ps[m]? = some p ∧ bs[e.1.body]? = some b ∧ e.1.portal = idx + m ∧
      ballTouchesPortal p b.q1 b.r = .ok (some e.1.plane) ∧ e.2 = boxAround (p.teleportBall junk b.q1 b.r) b.r := by
  induction ps generalizing idx l with
  | nil => cases h; simp
  | cons p ps ih =>
    unfold teleportedBalls at h
    obtain ⟨here, hh, h⟩ := Outcome.bind_ok_iff.mp h
    obtain ⟨rest, hr, h⟩ := Outcome.bind_ok_iff.mp h
    cases h
    rw [List.mem_append, ih hr, mem_teleportedOf hh]
    constructor
    · rintro (⟨k, b, hk, h1, h2, h3⟩ | ⟨m, q, b, hm, h1, h2, h3⟩)
      · exact ⟨0, p, b, rfl, by rw [h1]; simpa using hk, h2, h3⟩
      · exact ⟨m + 1, q, b, by simpa using hm, h1, by omega, h3⟩
    · rintro ⟨m, q, b, hm, h1, h2, h3⟩
      cases m with
      | zero => cases hm; exact Or.inl ⟨_, b, h1, by omega, h2, h3⟩
      | succ m => exact Or.inr ⟨m, q, b, by simpa using hm, h1, by omega, h3⟩

/-- if the loop over the portals succeeds, no ball touches both planes of a portal -/
theorem teleportedOf_total {junk : ℝ → ℤ} {prtl : Nat} {p : PlanarPortal ℝ} {idx : Nat} {bs : List BallStep} {l : List (TeleportedBall × Box 2 ℝ)}
    (h : teleportedOf junk prtl p idx bs = .ok l) : ∀ b ∈ bs, ∃ o, ballTouchesPortal p b.q1 b.r = .ok o := by
  induction bs generalizing idx l with
  | nil => simp
  | cons b bs ih =>
    unfold teleportedOf at h
    obtain ⟨o, ho, h⟩ := Outcome.bind_ok_iff.mp h
    obtain ⟨rest, hr, h⟩ := Outcome.bind_ok_iff.mp h
    intro c hc
    rcases List.mem_cons.mp hc with rfl | hc
    · exact ⟨o, ho⟩
    · exact ih hr c hc

theorem teleportedBalls_total {junk : ℝ → ℤ} {bs : List BallStep} {idx : Nat} {ps : List (PlanarPortal ℝ)} {l : List (TeleportedBall × Box 2 ℝ)}
    (h : teleportedBalls junk bs idx ps = .ok l) : ∀ p ∈ ps, ∀ b ∈ bs, ∃ o, ballTouchesPortal p b.q1 b.r = .ok o := by
  induction ps generalizing idx l with
  | nil => simp
  | cons p ps ih =>
    unfold teleportedBalls at h
    obtain ⟨here, hh, h⟩ := Outcome.bind_ok_iff.mp h
    obtain ⟨rest, hr, h⟩ := Outcome.bind_ok_iff.mp h
    intro q hq
    rcases List.mem_cons.mp hq with rfl | hq
    · exact teleportedOf_total hh
    · exact ih hr q hq

/-- the box of an image is the box around its centre -/
theorem teleportBall_eq {junk : ℝ → ℤ} {p : PlanarPortal ℝ} {b : BallStep} {pl : Bool} (h : ballTouchesPortal p b.q1 b.r = .ok (some pl)) :
    p.teleportBall junk b.q1 b.r = if pl = false then p.teleportPointThroughPlaneA junk b.q1 else p.teleportPointThroughPlaneB junk b.q1 := by
  obtain ⟨_, h1, h2⟩ := touches_ok h
  unfold PlanarPortal.teleportBall HalfPlane.distanceLessThanOrEqualZero
  have hh : p.planeA.n.dot (b.q1 - p.planeA.x) = p.planeA.height b.q1 := by simp [V2.dot, HalfPlane.height]
  rw [hh]
  cases pl <;> simp_all

/-! ## The loop over the candidate pairs -/

/-- the ordinary contact a pair of boxes contributes -/
noncomputable def ordinaryOf (bs : List BallStep) (tele : List TeleportedBall) (p : Nat × Nat) : Option Contact :=
  match (imageOf bs.length tele p.1).via, (imageOf bs.length tele p.2).via with
  | none, none =>
    if directlyActive bs p.1 p.2 then
      match bs[p.1]?, bs[p.2]? with
      | some a, some b => some (.ballBall (mkBallBall p.1 p.2 a.q0 b.q0 a.r b.r false))
      | _, _ => none
    else none
  | _, _ => none

/-- the teleported collision a pair of boxes contributes -/
noncomputable def collisionOf (junk : ℝ → ℤ) (portals : List (PlanarPortal ℝ)) (bs : List BallStep) (tele : List TeleportedBall) (p : Nat × Nat) :
    Option TeleportedCollision :=
  let i := imageOf bs.length tele p.1
  let j := imageOf bs.length tele p.2
  if i.via = none ∧ j.via = none then none
  else if i.via ≠ none ∧ j.via ≠ none ∧ directlyActive bs i.body j.body = true then none
  else if teleportedBallBallCollisionHappens junk portals bs (mkTeleportedCollision i j) then some (mkTeleportedCollision i j) else none

theorem classify_eq (junk : ℝ → ℤ) (portals : List (PlanarPortal ℝ)) (bs : List BallStep) (tele : List TeleportedBall)
    (acc : List Contact × List TeleportedCollision) (p : Nat × Nat) :
    classify junk portals bs tele acc p = (acc.1 ++ (ordinaryOf bs tele p).toList,
      (collisionOf junk portals bs tele p).toList.foldl (fun s c => insertCollision c s) acc.2) := by
  unfold classify ordinaryOf collisionOf
  simp only
  cases h1 : (imageOf bs.length tele p.1).via with
  | none =>
    cases h2 : (imageOf bs.length tele p.2).via with
    | none =>
      by_cases hd : directlyActive bs p.1 p.2 = true
      · cases ha : bs[p.1]? <;> cases hb : bs[p.2]? <;> simp [hd]
      · simp [hd]
    | some v =>
      simp only [reduceCtorEq, and_false, if_false, ne_eq, not_true_eq_false, false_and]
      split <;> simp
  | some u =>
    cases h2 : (imageOf bs.length tele p.2).via with
    | none =>
      simp only [reduceCtorEq, false_and, if_false, ne_eq, not_true_eq_false, and_false]
      split <;> simp
    | some v =>
      by_cases hd : directlyActive bs (imageOf bs.length tele p.1).body (imageOf bs.length tele p.2).body = true
      · simp [hd]
      · simp only [hd, Bool.false_eq_true, reduceCtorEq, and_false, if_false]
        by_cases ht : teleportedBallBallCollisionHappens junk portals bs
            (mkTeleportedCollision (imageOf bs.length tele p.1) (imageOf bs.length tele p.2)) = true <;> simp [ht]

theorem foldl_classify (junk : ℝ → ℤ) (portals : List (PlanarPortal ℝ)) (bs : List BallStep) (tele : List TeleportedBall)
    (pairs : List (Nat × Nat)) (acc : List Contact × List TeleportedCollision) :
    pairs.foldl (classify junk portals bs tele) acc = (acc.1 ++ pairs.filterMap (ordinaryOf bs tele),
      (pairs.filterMap (collisionOf junk portals bs tele)).foldl (fun s c => insertCollision c s) acc.2) := by
  induction pairs generalizing acc with
  | nil => simp
  | cons p ps ih =>
    rw [List.foldl_cons, ih, classify_eq]
    cases h1 : ordinaryOf bs tele p <;> cases h2 : collisionOf junk portals bs tele p <;> simp [h1, h2]

theorem ordinaryOf_form {bs : List BallStep} {tele : List TeleportedBall} {p : Nat × Nat} {c : Contact} (h : ordinaryOf bs tele p = some c) :
    ∃ a b, bs[p.1]? = some a ∧ bs[p.2]? = some b ∧ c = .ballBall (mkBallBall p.1 p.2 a.q0 b.q0 a.r b.r false) ∧ directlyActive bs p.1 p.2 = true := by
  unfold ordinaryOf at h
  split at h
  · split at h
    · split at h
      · cases h; exact ⟨_, _, by assumption, by assumption, rfl, by assumption⟩
      · cases h
    · cases h
  · cases h

theorem classify_form (junk : ℝ → ℤ) (portals : List (PlanarPortal ℝ)) (bs : List BallStep) (tele : List TeleportedBall)
    (pairs : List (Nat × Nat)) (acc : List Contact × List TeleportedCollision) (ha : ∀ c ∈ acc.1, ∃ c', c = .ballBall c') :
    ∀ c ∈ (pairs.foldl (classify junk portals bs tele) acc).1, ∃ c', c = .ballBall c' := by
  rw [foldl_classify]
  intro c hc
  rcases List.mem_append.mp hc with hc | hc
  · exact ha c hc
  · obtain ⟨p, _, hp⟩ := List.mem_filterMap.mp hc
    obtain ⟨_, _, _, _, rfl, _⟩ := ordinaryOf_form hp
    exact ⟨_, rfl⟩

/-! ## Box indices and images -/

section Images

variable {junk : ℝ → ℤ} {portals : List (PlanarPortal ℝ)} {bs : List BallStep} {tele : List (TeleportedBall × Box 2 ℝ)}

/-- every box is the box around the centre of the image its index stands for -/
theorem image_of_box (ht : teleportedBalls junk bs 0 portals = .ok tele) {k : Nat} {box : Box 2 ℝ}
    (hk : (bs.map (fun b => boxAround b.q1 b.r) ++ tele.map (·.2))[k]? = some box) :
    ∃ b c, IsImage junk portals bs (imageOf bs.length (tele.map (·.1)) k) b c ∧ box = boxAround c b.r := by
  by_cases hl : k < bs.length
  · rw [List.getElem?_append_left (by simpa using hl), List.getElem?_map] at hk
    rw [List.getElem?_eq_getElem hl] at hk
    cases hk
    refine ⟨bs[k], bs[k].q1, ?_, rfl⟩
    simp [imageOf, hl, IsImage]
  · rw [List.getElem?_append_right (by simpa using hl), List.length_map, List.getElem?_map] at hk
    cases he : tele[k - bs.length]? with
    | none => rw [he] at hk; cases hk
    | some e =>
      rw [he] at hk
      cases hk
      obtain ⟨m, p, b, hp, hb, hm, htch, hbox⟩ := (mem_teleportedBalls ht e).mp (List.mem_of_getElem? he)
      rw [Nat.zero_add] at hm
      subst hm
      have htele := teleportBall_eq (junk := junk) htch
      obtain ⟨_, h1, h2⟩ := touches_ok htch
      refine ⟨b, p.teleportBall junk b.q1 b.r, ?_, hbox⟩
      simp only [imageOf, hl, if_false, List.getElem?_map, he, Option.map_some, IsImage]
      refine ⟨hb, p, hp, ?_⟩
      cases hpl : e.1.plane with
      | false => exact Or.inl ⟨rfl, h1.mp (by rw [hpl]), by rw [htele, hpl]; simp⟩
      | true => exact Or.inr ⟨rfl, h2.mp (by rw [hpl]), by rw [htele, hpl]; simp⟩

/-- every image has a box -/
theorem box_of_image (ht : teleportedBalls junk bs 0 portals = .ok tele) {i : Image} {b : BallStep} {c : V2 ℝ}
    (hi : IsImage junk portals bs i b c) :
    ∃ k, imageOf bs.length (tele.map (·.1)) k = i ∧
      (bs.map (fun b => boxAround b.q1 b.r) ++ tele.map (·.2))[k]? = some (boxAround c b.r) := by
  obtain ⟨body, via⟩ := i
  obtain ⟨hb, hv⟩ := hi
  cases via with
  | none =>
    simp only at hb hv
    have hl := (List.getElem?_eq_some_iff.mp hb).1
    refine ⟨body, by simp [imageOf, hl], ?_⟩
    rw [List.getElem?_append_left (by simpa using hl), List.getElem?_map, hb, hv]
    rfl
  | some v =>
    obtain ⟨m, plane⟩ := v
    simp only at hb hv
    obtain ⟨p, hp, hv⟩ := hv
    obtain ⟨o, ho⟩ := teleportedBalls_total ht p (List.mem_of_getElem? hp) b (List.mem_of_getElem? hb)
    obtain ⟨hno, h1, h2⟩ := touches_ok ho
    have hop : o = some plane := by
      rcases hv with ⟨rfl, h, _⟩ | ⟨rfl, h, _⟩
      · exact h1.mpr h
      · exact h2.mpr h
    subst hop
    have htele := teleportBall_eq (junk := junk) ho
    have hc : c = p.teleportBall junk b.q1 b.r := by
      rw [htele]
      rcases hv with ⟨rfl, _, h⟩ | ⟨rfl, _, h⟩ <;> simpa using h
    have hmem : ((⟨body, m, plane⟩ : TeleportedBall), boxAround c b.r) ∈ tele :=
      (mem_teleportedBalls ht _).mpr ⟨m, p, b, hp, hb, by simp, ho, by rw [hc]⟩
    obtain ⟨k, hk⟩ := List.mem_iff_getElem?.mp hmem
    refine ⟨bs.length + k, ?_, ?_⟩
    · simp [imageOf, hk]
    · rw [List.getElem?_append_right (by simp)]
      simp [hk]

theorem isImage_unique {i : Image} {b b' : BallStep} {c c' : V2 ℝ} (h : IsImage junk portals bs i b c) (h' : IsImage junk portals bs i b' c') :
    b = b' ∧ c = c' := by
  obtain ⟨h1, h2⟩ := h
  obtain ⟨h1', h2'⟩ := h'
  rw [h1] at h1'
  cases h1'
  refine ⟨rfl, ?_⟩
  cases hv : i.via with
  | none => rw [hv] at h2 h2'; exact h2.trans h2'.symm
  | some v =>
    rw [hv] at h2 h2'
    obtain ⟨p, hp, h2⟩ := h2
    obtain ⟨p', hp', h2'⟩ := h2'
    rw [hp] at hp'
    cases hp'
    rcases h2 with ⟨e, _, h2⟩ | ⟨e, _, h2⟩ <;> rcases h2' with ⟨e', _, h2'⟩ | ⟨e', _, h2'⟩
    · exact h2.trans h2'.symm
    · rw [e] at e'; cases e'
    · rw [e] at e'; cases e'
    · exact h2.trans h2'.symm

theorem imageCenter_eq {i : Image} {b : BallStep} {c : V2 ℝ} (h : IsImage junk portals bs i b c) :
    imageCenter junk portals BallStep.q1 b i = c := by
  obtain ⟨_, h⟩ := h
  unfold imageCenter
  cases hv : i.via with
  | none => rw [hv] at h; exact h.symm
  | some v =>
    rw [hv] at h
    obtain ⟨p, hp, h⟩ := h
    simp only [hp]
    rcases h with ⟨e, _, h⟩ | ⟨e, _, h⟩ <;> simp [e, h]

theorem discsMeet_symm {a b : V2 ℝ} {r s : ℝ} : DiscsMeet a r b s ↔ DiscsMeet b s a r :=
  ⟨fun ⟨p, h1, h2⟩ => ⟨p, h2, h1⟩, fun ⟨p, h1, h2⟩ => ⟨p, h2, h1⟩⟩

theorem happens_iff (hr : ∀ b ∈ bs, 0 < b.r) {i j : Image} {a b : BallStep} {ca cb : V2 ℝ} (hi : IsImage junk portals bs i a ca)
    (hj : IsImage junk portals bs j b cb) :
    teleportedBallBallCollisionHappens junk portals bs (mkTeleportedCollision i j) = true ↔ DiscsMeet ca a.r cb b.r := by
  have ha := (hr a (List.mem_of_getElem? hi.1)).le
  have hb := (hr b (List.mem_of_getElem? hj.1)).le
  unfold teleportedBallBallCollisionHappens mkTeleportedCollision
  by_cases h : i.body > j.body
  · simp only [h, if_true, hi.1, hj.1]
    rw [ballBallIsActive_iff hb ha, imageCenter_eq hi, imageCenter_eq hj, discsMeet_symm]
  · simp only [h, if_false, hi.1, hj.1]
    rw [ballBallIsActive_iff ha hb, imageCenter_eq hi, imageCenter_eq hj]

theorem directlyActive_iff (hr : ∀ b ∈ bs, 0 < b.r) {i j : Nat} {a b : BallStep} (hi : bs[i]? = some a) (hj : bs[j]? = some b) :
    directlyActive bs i j = true ↔ DiscsMeet a.q1 a.r b.q1 b.r := by
  unfold directlyActive
  simp only [hi, hj]
  exact ballBallIsActive_iff (hr a (List.mem_of_getElem? hi)).le (hr b (List.mem_of_getElem? hj)).le

theorem collisionOf_iff (hr : ∀ b ∈ bs, 0 < b.r) {t : List TeleportedBall} {p : Nat × Nat} {a b : BallStep} {ca cb : V2 ℝ}
    (hi : IsImage junk portals bs (imageOf bs.length t p.1) a ca) (hj : IsImage junk portals bs (imageOf bs.length t p.2) b cb)
    (c : TeleportedCollision) :
    collisionOf junk portals bs t p = some c ↔ CollideThroughPortal junk portals bs (imageOf bs.length t p.1) (imageOf bs.length t p.2) ∧
      c = mkTeleportedCollision (imageOf bs.length t p.1) (imageOf bs.length t p.2) := by
  have hh := happens_iff hr hi hj
  have hd := directlyActive_iff hr hi.1 hj.1
  have hcoll : CollideThroughPortal junk portals bs (imageOf bs.length t p.1) (imageOf bs.length t p.2) ↔
      ((imageOf bs.length t p.1).via ≠ none ∨ (imageOf bs.length t p.2).via ≠ none) ∧ DiscsMeet ca a.r cb b.r ∧
      ¬((imageOf bs.length t p.1).via ≠ none ∧ (imageOf bs.length t p.2).via ≠ none ∧ DiscsMeet a.q1 a.r b.q1 b.r) := by
    constructor
    · rintro ⟨a', b', ca', cb', hi', hj', h⟩
      obtain ⟨rfl, rfl⟩ := isImage_unique hi hi'
      obtain ⟨rfl, rfl⟩ := isImage_unique hj hj'
      exact h
    · intro h
      exact ⟨a, b, ca, cb, hi, hj, h⟩
  rw [hcoll, ← hh, ← hd]
  unfold collisionOf
  simp only
  by_cases h1 : (imageOf bs.length t p.1).via = none ∧ (imageOf bs.length t p.2).via = none
  · simp [h1.1, h1.2]
  · rw [if_neg h1]
    have h1' : (imageOf bs.length t p.1).via ≠ none ∨ (imageOf bs.length t p.2).via ≠ none := by tauto
    split
    · rename_i h2
      constructor
      · intro h; cases h
      · rintro ⟨⟨_, _, h⟩, _⟩; exact absurd h2 h
    · rename_i h2
      split
      · rename_i h3
        simp only [h1', h3, h2, true_and, not_false_eq_true, Option.some.injEq]
        exact eq_comm
      · rename_i h3
        simp [h3]

theorem collideThroughPortal_symm {i j : Image} (h : CollideThroughPortal junk portals bs i j) : CollideThroughPortal junk portals bs j i := by
  obtain ⟨a, b, ca, cb, h1, h2, h3, h4, h5⟩ := h
  refine ⟨b, a, cb, ca, h2, h1, h3.symm, discsMeet_symm.mp h4, ?_⟩
  rintro ⟨h6, h7, h8⟩
  exact h5 ⟨h7, h6, discsMeet_symm.mp h8⟩

theorem portalBoxes_valid (hr : ∀ b ∈ bs, 0 < b.r) (ht : teleportedBalls junk bs 0 portals = .ok tele) :
    ∀ b ∈ bs.map (fun b => boxAround b.q1 b.r) ++ tele.map (·.2), b.Valid := by
  intro box hbox
  obtain ⟨k, hk⟩ := List.mem_iff_getElem?.mp hbox
  obtain ⟨b, c, hi, rfl⟩ := image_of_box ht hk
  exact boxAround_valid (hr b (List.mem_of_getElem? hi.1))

theorem generateTeleported_some {c : TeleportedCollision} {a b : BallStep} (ha : bs[c.fst.body]? = some a) (hb : bs[c.snd.body]? = some b) :
    ∃ d, generateTeleported junk portals bs c = some (.ballBall d) ∧ d.teleported = true ∧ d.idx0 = c.fst.body ∧ d.idx1 = c.snd.body := by
  unfold generateTeleported
  simp only [ha, hb]
  cases c.snd.slides portals with
  | some p => exact ⟨_, rfl, rfl, rfl, rfl⟩
  | none =>
    cases c.fst.slides portals with
    | some p => exact ⟨_, rfl, rfl, rfl, rfl⟩
    | none => exact ⟨_, rfl, rfl, rfl, rfl⟩

theorem see_eq (i : Image) (b : BallStep) : imageCenter junk portals BallStep.q0 b i = i.see junk portals b.q0 := by
  unfold imageCenter Image.see
  cases hv : i.via with
  | none => rfl
  | some v =>
    obtain ⟨k, plane⟩ := v
    cases hp : portals[k]? with
    | none => simp [hp]
    | some p => cases plane <;> simp [hp]

theorem kick_eq (ht : teleportedBalls junk bs 0 portals = .ok tele) {i : Image} {b : BallStep} {c : V2 ℝ} (hi : IsImage junk portals bs i b c)
    {p : PlanarPortal ℝ} {plane : Bool} (hs : i.slidesThrough portals p plane) : p.getKinematicVelocityOfBall b.q1 b.r = kickOf p plane := by
  obtain ⟨k, hv, hp, _⟩ := hs
  obtain ⟨hb, hi⟩ := hi
  rw [hv] at hi
  obtain ⟨p', hp', hi⟩ := hi
  rw [hp] at hp'
  cases hp'
  obtain ⟨o, ho⟩ := teleportedBalls_total ht p (List.mem_of_getElem? hp) b (List.mem_of_getElem? hb)
  obtain ⟨hno, _, _⟩ := touches_ok ho
  have hh : p.planeA.n.dot (b.q1 - p.planeA.x) = p.planeA.height b.q1 := by simp [V2.dot, HalfPlane.height]
  unfold PlanarPortal.getKinematicVelocityOfBall HalfPlane.distanceLessThanOrEqualZero kickOf
  rw [hh]
  rcases hi with ⟨rfl, h, _⟩ | ⟨rfl, h, _⟩
  · simp [h]
  · have : ¬p.planeA.height b.q1 ≤ b.r := fun h' => hno ⟨h', h⟩
    simp [this]

theorem slides_some {i : Image} {p : PlanarPortal ℝ} (h : i.slides portals = some p) : ∃ plane, i.slidesThrough portals p plane := by
  unfold Image.slides at h
  split at h
  · cases h
  · rename_i k plane hv
    split at h
    · cases h
    · rename_i q hq
      split at h
      · rename_i hle
        cases h
        exact ⟨plane, k, hv, hq, by simpa [PlanarPortal.isLeesEdwards] using hle⟩
      · cases h

theorem slides_none {i : Image} (h : i.slides portals = none) : ¬∃ p plane, i.slidesThrough portals p plane := by
  rintro ⟨p, plane, k, hv, hp, hne⟩
  unfold Image.slides at h
  simp [hv, hp, PlanarPortal.isLeesEdwards, hne] at h

theorem slidesThrough_unique {i : Image} {p q : PlanarPortal ℝ} {a b : Bool} (h1 : i.slidesThrough portals p a) (h2 : i.slidesThrough portals q b) :
    p = q ∧ a = b := by
  obtain ⟨k, hv, hp, _⟩ := h1
  obtain ⟨k', hv', hp', _⟩ := h2
  rw [hv] at hv'
  cases hv'
  rw [hp] at hp'
  cases hp'
  exact ⟨rfl, rfl⟩

theorem generateTeleported_data (ht : teleportedBalls junk bs 0 portals = .ok tele) {c : TeleportedCollision} {a b : BallStep} {ca cb : V2 ℝ}
    (h1 : IsImage junk portals bs c.fst a ca) (h2 : IsImage junk portals bs c.snd b cb) {d : BallBall}
    (hg : generateTeleported junk portals bs c = some (.ballBall d)) :
    d.idx0 = c.fst.body ∧ d.idx1 = c.snd.body ∧ d.r0 = a.r ∧ d.r1 = b.r ∧
      d.n = (c.fst.see junk portals a.q0 - c.snd.see junk portals b.q0).normalized ∧
      (∀ p plane, c.snd.slidesThrough portals p plane → d.kick = some (kickOf p plane)) ∧
      ((¬∃ p plane, c.snd.slidesThrough portals p plane) → ∀ p plane, c.fst.slidesThrough portals p plane → d.kick = some (-kickOf p plane)) ∧
      ((¬∃ p plane, c.snd.slidesThrough portals p plane) → (¬∃ p plane, c.fst.slidesThrough portals p plane) → d.kick = none) := by
  unfold generateTeleported at hg
  simp only [h1.1, h2.1] at hg
  cases hs : c.snd.slides portals with
  | some p =>
    obtain ⟨plane, hsl⟩ := slides_some hs
    simp only [hs] at hg
    cases hg
    refine ⟨rfl, rfl, rfl, rfl, by simp [mkBallBall, see_eq], ?_, ?_, ?_⟩
    · intro q plane' hq
      obtain ⟨rfl, rfl⟩ := slidesThrough_unique hsl hq
      simp [kick_eq ht h2 hsl]
    · intro h; exact absurd ⟨p, plane, hsl⟩ h
    · intro h; exact absurd ⟨p, plane, hsl⟩ h
  | none =>
    have hno := slides_none hs
    cases hf : c.fst.slides portals with
    | some p =>
      obtain ⟨plane, hsl⟩ := slides_some hf
      simp only [hs, hf] at hg
      cases hg
      refine ⟨rfl, rfl, rfl, rfl, by simp [mkBallBall, see_eq], fun q pl hq => absurd ⟨q, pl, hq⟩ hno, ?_, ?_⟩
      · intro _ q plane' hq
        obtain ⟨rfl, rfl⟩ := slidesThrough_unique hsl hq
        simp [kick_eq ht h1 hsl]
      · intro _ h; exact absurd ⟨p, plane, hsl⟩ h
    | none =>
      simp only [hs, hf] at hg
      cases hg
      exact ⟨rfl, rfl, rfl, rfl, by simp [mkBallBall, see_eq], fun q pl hq => absurd ⟨q, pl, hq⟩ hno,
        fun _ q pl hq => absurd ⟨q, pl, hq⟩ (slides_none hf), fun _ _ => rfl⟩

end Images

end Scisim
