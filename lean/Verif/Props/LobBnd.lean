import Verif.Lemmas.LobDir
import Verif.Lemmas.LobSetup

/-!
# C37: `lob_bnd` returns bounds

`Lob.Data n m D z Q h lb` says that the array `D` of `lob_bnd_size(n,m)` doubles holds the nodes `z`, the functionals `Q`, the nodes `h`, the table `lb` and
its positive and negative parts. `ValidTable` (Spec/LobBnd) says that the table consists of piecewise linear bounds of the basis polynomials.
-/

namespace Gslib.Props
open Gslib.Num Gslib.Poly Gslib.Spec Gslib.Lob Finset Polynomial
variable {K : Type} [Field K] [LinearOrder K] [IsStrictOrderedRing K]

/-- **C37** `lob_bnd_lin_1`: for each of the `un` polynomials the `m` pairs stored are piecewise linear bounds -/
theorem lob_bnd_lin_1_bounds {n m : Nat} (hn : 2 ≤ n) {D : Mem K} {z h : Nat → K} {Q : Nat → K × K} {lb : Nat → Nat → K × K} (hD : Data n m D z Q h lb)
    (hz : ∀ i < n, ∀ j < n, z i = z j → i = j) (hv : ValidTable n m z h lb)
    {ucap uo un : Nat} {um : Mem K} {u : Nat → K} (hu : Has um uo (un * n) u) (huc : uo + un * n ≤ ucap) {cap bo : Nat} (hb : bo + 2 * (un * m) ≤ cap) (w : Mem K) :
    ∃ w', lin1 n m D ucap um uo un cap bo w = some w' ∧ Outside bo (2 * (un * m)) w w' ∧
      ∃ b, Pairs w' bo (un * m) b ∧ ∀ l < un, PLBounds m h (fun k => b (l * m + k)) (poly1 n z fun i => u (l * n + i)) := by
  obtain ⟨w', e, h1, h2⟩ := lin1_run hD hu huc hb w
  refine ⟨w', e, h2, _, h1, fun l _ j hj t h0 h1' => ?_⟩
  have := (dir_of hn hz hv hj h0 h1').fst Q (fun i => u (l * n + i))
  unfold Enc at this
  rw [sum_hat hj t (fun k => (fstVal n z Q h lb (fun i => u (l * n + i)) n k).1), sum_hat hj t (fun k => (fstVal n z Q h lb (fun i => u (l * n + i)) n k).2)] at this
  unfold plin at *
  beta_reduce at *
  rw [rowVal_at (by omega), rowVal_at hj]
  exact this

/-- **C37** `lob_bnd_1` returns an interval containing every value of the polynomial on [-1,1], and uses only `2m` doubles of `work` -/
theorem lob_bnd_1_contains {n m : Nat} (hn : 2 ≤ n) {D : Mem K} {z h : Nat → K} {Q : Nat → K × K} {lb : Nat → Nat → K × K} (hD : Data n m D z Q h lb)
    (hz : ∀ i < n, ∀ j < n, z i = z j → i = j) (hv : ValidTable n m z h lb)
    {ucap uo : Nat} {um : Mem K} {u : Nat → K} (hu : Has um uo n u) (huc : uo + n ≤ ucap) {cap wo : Nat} (hb : wo + 2 * m ≤ cap) (w : Mem K) :
    ∃ r w', bnd1 n m D ucap um uo cap wo w = some (r, w') ∧ Outside wo (2 * m) w w' ∧ ∀ x, -1 ≤ x → x ≤ 1 → r.1 ≤ poly1 n z u x ∧ poly1 n z u x ≤ r.2 := by
  have hm := hv.two
  obtain ⟨w', e, h1, h2⟩ := lin1_run hD (un := 1) (ucap := ucap) (uo := uo) (um := um) (U := u) (by rwa [Nat.one_mul]) (by rwa [Nat.one_mul]) (cap := cap) (bo := wo) (by omega) w
  rw [Nat.one_mul] at h1 h2
  obtain ⟨r, er, h3, -, -⟩ := minmax_run (by omega) hb h1
  refine ⟨r, w', by rw [bnd1, e, Option.bind_some, er]; rfl, h2, fun x hx hx' => ?_⟩
  obtain ⟨j, t, hj, h0, h1', rfl⟩ := segment hm hv.first hv.last hx hx'
  have hd := dir_of hn hz hv hj h0 h1'
  refine enc_minmax hd.wts (hd.fst Q u) fun k hk => ?_
  have := h3 k hk
  rw [show rowVal n m z Q h lb u k = fstVal n z Q h lb u n k by
    have := rowVal_at (n := n) (z := z) (Q := Q) (h := h) (lb := lb) (U := u) (l := 0) hk
    simp only [Nat.zero_mul, Nat.zero_add] at this
    exact this] at this
  exact this

section two
variable {nr mr : Nat} (hnr : 2 ≤ nr) {Dr : Mem K} {zr hr : Nat → K} {Qr : Nat → K × K} {lbr : Nat → Nat → K × K} (hDr : Data nr mr Dr zr Qr hr lbr)
  (hzr : ∀ i < nr, ∀ j < nr, zr i = zr j → i = j) (hvr : ValidTable nr mr zr hr lbr)
  {ns ms : Nat} (hns : 2 ≤ ns) {Ds : Mem K} {zs hs : Nat → K} {Qs : Nat → K × K} {lbs : Nat → Nat → K × K} (hDs : Data ns ms Ds zs Qs hs lbs)
  (hzs : ∀ i < ns, ∀ j < ns, zs i = zs j → i = j) (hvs : ValidTable ns ms zs hs lbs)
include hnr hDr hzr hvr hns hDs hzs hvs

/-- **C37** `lob_bnd_lin_2`: for each of the `un` polynomials the pairs stored at the `mr*ms` nodes are piecewise bilinear bounds; `work` needs `2*mr+2*ns*mr` doubles -/
theorem lob_bnd_lin_2_bounds
    {ucap uo un : Nat} {um : Mem K} {u : Nat → K} (hu : Has um uo (un * (ns * nr)) u) (huc : uo + un * (ns * nr) ≤ ucap) {cap bo wo : Nat}
    (hb : bo + 2 * (un * (mr * ms)) ≤ cap) (hw : wo + (2 * mr + 2 * (ns * mr)) ≤ cap) (hd : bo + 2 * (un * (mr * ms)) ≤ wo ∨ wo + (2 * mr + 2 * (ns * mr)) ≤ bo) (w : Mem K) :
    ∃ w', lin2 nr mr Dr ns ms Ds ucap um uo un cap bo wo w = some w' ∧ Outside2 bo (2 * (un * (mr * ms))) wo (2 * mr + 2 * (ns * mr)) w w' ∧
      ∀ l < un, ∃ b, Pairs w' (bo + 2 * (l * (mr * ms))) (mr * ms) b ∧
        ∀ i j, i + 1 < mr → j + 1 < ms → ∀ α β, 0 ≤ α → α ≤ 1 → 0 ≤ β → β ≤ 1 →
          plin2 ms (fun k => (b k).1) i α j β ≤ poly2 nr zr ns zs (fun i => u (l * (ns * nr) + i)) (plin hr i α) (plin hs j β) ∧
          poly2 nr zr ns zs (fun i => u (l * (ns * nr) + i)) (plin hr i α) (plin hs j β) ≤ plin2 ms (fun k => (b k).2) i α j β := by
  obtain ⟨w', e, h1, h2⟩ := lin2_run hDr hDs hu huc hb hw hd w
  refine ⟨w', e, h2, fun l hl => ⟨_, h1 l hl, fun i j hi hj α β a0 a1 b0 b1 => ?_⟩⟩
  have := val2_enc (dir_of hnr hzr hvr hi a0 a1) (dir_of hns hzs hvs hj b0 b1) Qr Qs (fun i => u (l * (ns * nr) + i))
  unfold Enc at this
  rw [enc_plin2 hi hj α β (fun k => (val2 nr mr zr Qr hr lbr ns ms zs Qs hs lbs (fun i => u (l * (ns * nr) + i)) k).1),
    enc_plin2 hi hj α β (fun k => (val2 nr mr zr Qr hr lbr ns ms zs Qs hs lbs (fun i => u (l * (ns * nr) + i)) k).2)] at this
  rw [poly2_eq]
  exact this

/-- **C37** `lob_bnd_2` returns an interval containing every value of the polynomial on [-1,1]^2, and uses only the documented `2*mr*(ms+1+ns)` doubles of `work` -/
theorem lob_bnd_2_contains
    {ucap uo : Nat} {um : Mem K} {u : Nat → K} (hu : Has um uo (ns * nr) u) (huc : uo + ns * nr ≤ ucap) {cap wo : Nat}
    (hb : wo + 2 * mr * (ms + 1 + ns) ≤ cap) (w : Mem K) :
    ∃ R w', bnd2 nr mr Dr ns ms Ds ucap um uo cap wo w = some (R, w') ∧ Outside wo (2 * mr * (ms + 1 + ns)) w w' ∧
      ∀ r s, -1 ≤ r → r ≤ 1 → -1 ≤ s → s ≤ 1 → R.1 ≤ poly2 nr zr ns zs u r s ∧ poly2 nr zr ns zs u r s ≤ R.2 := by
  have hmr := hvr.two
  have hms := hvs.two
  have hsz : 2 * mr * (ms + 1 + ns) = 2 * (mr * ms) + (2 * mr + 2 * (ns * mr)) := by ring
  have hpos : 0 < mr * ms := Nat.mul_pos (by omega) (by omega)
  obtain ⟨w', e, h1, h2⟩ := lin2_run hDr hDs (un := 1) (ucap := ucap) (uo := uo) (um := um) (U := u) (by rwa [Nat.one_mul]) (by rwa [Nat.one_mul])
    (cap := cap) (bo := wo) (wo := wo + 2 * (mr * ms)) (by omega) (by omega) (by omega) w
  have h1 := h1 0 (by omega)
  simp only [Nat.zero_mul, Nat.mul_zero, Nat.add_zero, Nat.zero_add] at h1
  obtain ⟨R, er, h3, -, -⟩ := minmax_run hpos (cap := cap) (by omega) h1
  refine ⟨R, w', ?_, ?_, fun r s hr1 hr2 hs1 hs2 => ?_⟩
  · rw [bnd2]
    rw [e, Option.bind_some, er]; rfl
  · intro x hx
    exact h2 x (by omega) (by omega)
  · obtain ⟨i, α, hi, a0, a1, rfl⟩ := segment hmr hvr.first hvr.last hr1 hr2
    obtain ⟨j, β, hj, b0, b1, rfl⟩ := segment hms hvs.first hvs.last hs1 hs2
    have dr := dir_of hnr hzr hvr hi a0 a1
    have ds := dir_of hns hzs hvs hj b0 b1
    rw [poly2_eq]
    exact enc_minmax (ds.wtsMul mr _ dr.wts) (val2_enc dr ds Qr Qs u) h3
end two

section three
variable {nr mr : Nat} (hnr : 2 ≤ nr) {Dr : Mem K} {zr hr : Nat → K} {Qr : Nat → K × K} {lbr : Nat → Nat → K × K} (hDr : Data nr mr Dr zr Qr hr lbr)
  (hzr : ∀ i < nr, ∀ j < nr, zr i = zr j → i = j) (hvr : ValidTable nr mr zr hr lbr)
  {ns ms : Nat} (hns : 2 ≤ ns) {Ds : Mem K} {zs hs : Nat → K} {Qs : Nat → K × K} {lbs : Nat → Nat → K × K} (hDs : Data ns ms Ds zs Qs hs lbs)
  (hzs : ∀ i < ns, ∀ j < ns, zs i = zs j → i = j) (hvs : ValidTable ns ms zs hs lbs)
  {nt mt : Nat} (hnt : 2 ≤ nt) {Dt : Mem K} {zt ht : Nat → K} {Qt : Nat → K × K} {lbt : Nat → Nat → K × K} (hDt : Data nt mt Dt zt Qt ht lbt)
  (hzt : ∀ i < nt, ∀ j < nt, zt i = zt j → i = j) (hvt : ValidTable nt mt zt ht lbt) (hle : ns * nt ≤ ms * mt)
include hnr hDr hzr hvr hns hDs hzs hvs hnt hDt hzt hvt hle

/-- **C37** `lob_bnd_lin_3`: for each of the `un` polynomials the pairs stored at the `mr*ms*mt` nodes are piecewise trilinear bounds. The output array is used
as intermediate storage for `ns*nt*mr` pairs, so `ns*nt <= ms*mt` is needed. -/
theorem lob_bnd_lin_3_bounds
    {ucap uo un : Nat} {um : Mem K} {u : Nat → K} (hu : Has um uo (un * (nt * (ns * nr))) u) (huc : uo + un * (nt * (ns * nr)) ≤ ucap) {cap bo wo : Nat}
    (hb : bo + 2 * (un * (mr * ms * mt)) ≤ cap) (hw : wo + (2 * (mr * ms) + 2 * (nt * (mr * ms))) ≤ cap)
    (hd : bo + 2 * (un * (mr * ms * mt)) ≤ wo ∨ wo + (2 * (mr * ms) + 2 * (nt * (mr * ms))) ≤ bo) (w : Mem K) :
    ∃ w', lin3 nr mr Dr ns ms Ds nt mt Dt ucap um uo un cap bo wo w = some w' ∧
      Outside2 bo (2 * (un * (mr * ms * mt))) wo (2 * (mr * ms) + 2 * (nt * (mr * ms))) w w' ∧
      ∀ l < un, ∃ b, Pairs w' (bo + 2 * (l * (mr * ms * mt))) (mr * ms * mt) b ∧
        ∀ i j k, i + 1 < mr → j + 1 < ms → k + 1 < mt → ∀ α β γ, 0 ≤ α → α ≤ 1 → 0 ≤ β → β ≤ 1 → 0 ≤ γ → γ ≤ 1 →
          plin3 ms mt (fun k => (b k).1) i α j β k γ ≤ poly3 nr zr ns zs nt zt (fun i => u (l * (nt * (ns * nr)) + i)) (plin hr i α) (plin hs j β) (plin ht k γ) ∧
          poly3 nr zr ns zs nt zt (fun i => u (l * (nt * (ns * nr)) + i)) (plin hr i α) (plin hs j β) (plin ht k γ) ≤ plin3 ms mt (fun k => (b k).2) i α j β k γ := by
  have hms := hvs.two
  obtain ⟨w', e, h1, h2⟩ := lin3_run hDr hDs hDt hle hu huc hb hw hd (by omega) w
  refine ⟨w', e, h2, fun l hl => ⟨_, h1 l hl, fun i j k hi hj hk α β γ a0 a1 b0 b1 c0 c1 => ?_⟩⟩
  have := val3_enc (dir_of hnr hzr hvr hi a0 a1) (dir_of hns hzs hvs hj b0 b1) (dir_of hnt hzt hvt hk c0 c1) Qr Qs Qt (fun i => u (l * (nt * (ns * nr)) + i))
  unfold Enc at this
  rw [enc_plin3 hi hj hk α β γ (fun p => (val3 nr mr zr Qr hr lbr ns ms zs Qs hs lbs nt mt zt Qt ht lbt (fun i => u (l * (nt * (ns * nr)) + i)) p).1),
    enc_plin3 hi hj hk α β γ (fun p => (val3 nr mr zr Qr hr lbr ns ms zs Qs hs lbs nt mt zt Qt ht lbt (fun i => u (l * (nt * (ns * nr)) + i)) p).2)] at this
  rw [poly3_eq]
  exact this

/-- **C37** `lob_bnd_3` returns an interval containing every value of the polynomial on [-1,1]^3, and uses only the documented `2*mr*ms*(nt+mt+1)` doubles of `work`;
needs `ns*nt <= ms*mt` -/
theorem lob_bnd_3_contains
    {ucap uo : Nat} {um : Mem K} {u : Nat → K} (hu : Has um uo (nt * (ns * nr)) u) (huc : uo + nt * (ns * nr) ≤ ucap) {cap wo : Nat}
    (hb : wo + 2 * mr * ms * (nt + mt + 1) ≤ cap) (w : Mem K) :
    ∃ R w', bnd3 nr mr Dr ns ms Ds nt mt Dt ucap um uo cap wo w = some (R, w') ∧ Outside wo (2 * mr * ms * (nt + mt + 1)) w w' ∧
      ∀ r s t, -1 ≤ r → r ≤ 1 → -1 ≤ s → s ≤ 1 → -1 ≤ t → t ≤ 1 → R.1 ≤ poly3 nr zr ns zs nt zt u r s t ∧ poly3 nr zr ns zs nt zt u r s t ≤ R.2 := by
  have hmr := hvr.two
  have hms := hvs.two
  have hmt := hvt.two
  have hsz : 2 * mr * ms * (nt + mt + 1) = 2 * (mr * ms * mt) + (2 * (mr * ms) + 2 * (nt * (mr * ms))) := by ring
  have hpos : 0 < mr * ms * mt := Nat.mul_pos (Nat.mul_pos (by omega) (by omega)) (by omega)
  obtain ⟨w', e, h1, h2⟩ := lin3_run hDr hDs hDt hle (un := 1) (ucap := ucap) (uo := uo) (um := um) (U := u) (by rwa [Nat.one_mul]) (by rwa [Nat.one_mul])
    (cap := cap) (bo := wo) (wo := wo + 2 * (mr * ms * mt)) (by omega) (by omega) (by omega) (by omega) w
  have h1 := h1 0 (by omega)
  simp only [Nat.zero_mul, Nat.mul_zero, Nat.add_zero, Nat.zero_add] at h1
  obtain ⟨R, er, h3, -, -⟩ := minmax_run hpos (cap := cap) (by omega) h1
  refine ⟨R, w', ?_, ?_, fun r s t hr1 hr2 hs1 hs2 ht1 ht2 => ?_⟩
  · rw [bnd3]
    rw [e, Option.bind_some, er]; rfl
  · intro x hx
    exact h2 x (by omega) (by omega)
  · obtain ⟨i, α, hi, a0, a1, rfl⟩ := segment hmr hvr.first hvr.last hr1 hr2
    obtain ⟨j, β, hj, b0, b1, rfl⟩ := segment hms hvs.first hvs.last hs1 hs2
    obtain ⟨k, γ, hk, c0, c1, rfl⟩ := segment hmt hvt.first hvt.last ht1 ht2
    have dr := dir_of hnr hzr hvr hi a0 a1
    have ds := dir_of hns hzs hvs hj b0 b1
    have dt := dir_of hnt hzt hvt hk c0 c1
    rw [poly3_eq]
    exact enc_minmax (dt.wtsMul (mr * ms) _ (ds.wtsMul mr _ dr.wts)) (val3_enc dr ds dt Qr Qs Qt u) h3
end three

end Gslib.Props
