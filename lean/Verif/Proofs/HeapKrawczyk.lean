import Verif.Proofs.HeapMore
import Verif.Proofs.KrawczykSplit

/-! # The krawczyk Split functions meet their specification in the presence of other calls -/

namespace Verif.Proofs.Own
open Verif Outcome Galois Shamir Spec Pool Csprng RS Krawczyk Verif.Heap

variable {R : Set Loc}

/-- What a successful `encode` delivers. -/
theorem encode_inv {env : Env} (hc : env.lib.Contract) {secret key : List Byte} {parts threshold : Int}
    (hkey : key.length = 16) (hp : ArgsPass secret.length parts threshold) {ct : List Byte} {es : List (List Byte)}
    (h : encode env secret key parts threshold = ok (ct, es)) :
    0 < parts.toNat ∧ es.length = parts.toNat ∧ ∃ le, ∀ e ∈ es, e.length = le := by
  obtain ⟨p1, p2, p3, p4, p5⟩ := hp
  by_cases hn : threshold ≤ 0 ∨ parts < threshold ∨ (parts = threshold ∧ env.lib.allowsNoParity = false)
  · rw [encode_err_new env hkey (new_err hn)] at h; cases h
  have hk : 0 < threshold.toNat := by omega
  have hpar := parityOk_of (fun c => hn (Or.inr (Or.inr c))) p4
  have hkm : threshold.toNat + (parts - threshold).toNat ≤ 256 := by omega
  have ep : parts = (threshold.toNat + (parts - threshold).toNat : Nat) := by omega
  have et : threshold = (threshold.toNat : Int) := by omega
  by_cases hs : secret = []
  · have := encode_err_empty env hkey hk hpar hkm
    rw [← ep, ← et] at this
    rw [hs, this] at h; cases h
  have en := encode_ok env hkey hk hpar hkm hs
  rw [← ep, ← et, h] at en
  have e2 : es = _ := congrArg Prod.snd (Outcome.ok.inj en)
  have ep' : threshold.toNat + (parts - threshold).toNat = parts.toNat := by omega
  rw [ep'] at e2
  refine ⟨by omega, by simp [e2], perShard secret.length threshold.toNat + 1, ?_⟩
  intro e he
  rw [e2] at he
  obtain ⟨i, hi, rfl⟩ := List.mem_map.1 he
  have hi : i < parts.toNat := by simpa using hi
  have hil : i < (codeword env.lib threshold.toNat (parts - threshold).toNat (cipherOf env secret key)).length := by
    simp only [length_codeword]; omega
  rw [List.length_append, List.getD_eq_getElem?_getD, List.getElem?_eq_getElem hil, Option.getD_some,
    mem_codeword hc hk hkm (List.getElem_mem hil), length_cipherOf]
  simp

theorem matrix_contents {a : Arr} {c n : Nat} {h : HeapF} {row : Nat → List Byte} (hl : (h a).length = n * c)
    (hrow : ∀ i < n, (row i).length = c) (hv : ∀ i < n, ∀ q < c, (h a).getD (c * i + q) 0 = (row i).getD q 0) :
    (matrix a c n).map (contents h) = (List.range n).map row := by
  unfold matrix
  rw [List.map_map]
  apply List.map_congr_left
  intro i hi
  have hi : i < n := by simpa using hi
  have hle : c * i + c ≤ n * c := by rw [← Nat.mul_succ, Nat.mul_comm n]; exact Nat.mul_le_mul_left _ hi
  show contents h ⟨a, c * i, c, c⟩ = row i
  rw [contents_eq (by show c * i + c ≤ (h a).length; omega)]
  unfold window
  show (List.range c).map (fun q => (h a).getD (c * i + q) 0) = row i
  apply List.ext_getElem
  · simp [hrow i hi]
  · intro q h1 h2
    have hq : q < c := by simpa using h1
    rw [List.getElem_map, List.getElem_range, hv i hi q hq, List.getD_eq_getElem?_getD, List.getElem?_eq_getElem h2]; rfl

theorem matrix_owned {a : Arr} {c n : Nat} {W : Set Loc} {h : HeapF} (hb : own a ⊆ W) (hl : (h a).length = n * c) :
    ∀ s ∈ matrix a c n, own s.arr ⊆ W ∧ s.off + s.cap ≤ (h s.arr).length ∧ s.len ≤ s.cap := by
  intro s hs
  obtain ⟨i, hi, rfl⟩ := List.mem_map.1 hs
  have hi : i < n := by simpa using hi
  have hle : c * i + c ≤ n * c := by rw [← Nat.mul_succ, Nat.mul_comm n]; exact Nat.mul_le_mul_left _ hi
  refine ⟨hb, ?_, le_rfl⟩
  show c * i + c ≤ (h a).length
  omega

/-- Assembling the shares. -/
theorem wp_assembleP {n le lm : Nat} {es : List (List Byte)} {ms : List Slice} {W : Set Loc} {h : HeapF} {log : List Byte}
    {Q : Post (Outcome (List Slice))} (hn : 0 < n) (he : es.length = n) (hle : ∀ e ∈ es, e.length = le) (hm : ms.length = n)
    (hlm : ∀ m ∈ ms, m.len = lm ∧ own m.arr ⊆ W ∧ m.off + m.len ≤ (h m.arr).length)
    (hQ : ∀ a h', Fresh (W ∪ R) a → (h' a).length = n * (le + lm) →
      (matrix a (le + lm) n).map (contents h') = (List.range n).map (fun i => (ms.map (contents h)).getD i [] ++ es.getD i []) →
      Q (ok (matrix a (le + lm) n)) (W ∪ own a) h' log) :
    wp R (assembleP n es ms) Q W h log := by
  have le0 : (es[0]'(by omega)).length = le := hle _ (List.getElem_mem _)
  have lm0 : (ms[0]'(by omega)).len = lm := (hlm _ (List.getElem_mem _)).1
  unfold assembleP
  rw [idx_ok (by omega), idx_ok (by omega)]
  simp only [Prog.call]
  rw [le0, lm0]
  intro a ha
  refine wp_bind _ _ _ _ _ (wp_mono ?_ _ _ _ _ (wp_forUp (fun i _ W' h' log' => W' = W ∪ own a ∧ log' = log ∧
    (∀ b, b ≠ a → h' b = h b) ∧ (h' a).length = n * (le + lm) ∧
    ∀ j < i, ∀ q < le + lm, (h' a).getD ((le + lm) * j + q) 0 = ((ms.map (contents h)).getD j [] ++ es.getD j []).getD q 0)
    ⟨rfl, rfl, ?_, ?_, ?_⟩ ?_))
  · rintro _ W' h' log' ⟨rfl, rfl, ho, hl, hv⟩
    refine hQ a h' ha hl (matrix_contents hl ?_ hv)
    intro i hi
    have h1 : (es[i]'(by omega)).length = le := hle _ (List.getElem_mem _)
    have h2 := hlm (ms[i]'(by omega)) (List.getElem_mem _)
    simp only [List.length_append, List.getD_eq_getElem?_getD, List.getElem?_map, List.getElem?_eq_getElem (by omega : i < ms.length),
      List.getElem?_eq_getElem (by omega : i < es.length), Option.map_some, Option.getD_some, h1]
    rw [contents_eq h2.2.2, length_window, h2.1, Nat.add_comm]
  · intro b hb; rw [Function.update_of_ne hb]
  · simp
  · intro j hj; omega
  · rintro i hi _ W' h' log' ⟨rfl, rfl, ho, hl, hv⟩
    have h1 : (es[i]'(by omega)).length = le := hle _ (List.getElem_mem _)
    have h2 := hlm (ms[i]'(by omega)) (List.getElem_mem _)
    have hne : (ms[i]'(by omega)).arr ≠ a := by
      intro e
      exact ha 0 (Or.inl (h2.2.1 (by show a = _; exact e.symm)))
    have hib : (le + lm) * i + (le + lm) ≤ n * (le + lm) := by
      rw [← Nat.mul_succ, Nat.mul_comm n]; exact Nat.mul_le_mul_left _ hi
    rw [idx_ok (by omega), idx_ok (by omega)]
    refine wp_bind _ _ _ _ _ (wp_bind _ _ _ _ _ (wp_bind _ _ _ _ _
      (wp_readAll (fun k hk => Or.inl (Or.inl (h2.2.1 rfl))) (by rw [ho _ hne]; exact h2.2.2) ?_)))
    rw [ho _ hne, ← contents_eq h2.2.2]
    have hcl : (contents h (ms[i]'(by omega))).length = lm := by rw [contents_eq h2.2.2, length_window, h2.1]
    rw [List.take_of_length_le (by omega), List.take_of_length_le (by omega)]
    refine wp_bind _ _ _ _ _ (wp_writeAll (fun k _ => Or.inr rfl) (by rw [hcl]; omega) ?_)
    have hl2 : (writeAt (h' a) ((le + lm) * i) (contents h (ms[i]'(by omega)))).length = n * (le + lm) := by
      rw [length_writeAt (by rw [hcl]; omega), hl]
    refine wp_writeAll (fun k _ => Or.inr rfl) (by rw [Function.update_self, hl2, h1]; omega) ?_
    rw [Function.update_self, Function.update_idem]
    refine ⟨rfl, rfl, ?_, ?_, ?_⟩
    · intro b hb; rw [Function.update_of_ne hb]; exact ho b hb
    · rw [Function.update_self, length_writeAt (by rw [hl2, h1]; omega), hl2]
    · intro j hj q hq
      rw [Function.update_self, getD_writeAt _ _ _ _ (by rw [hl2, h1]; omega), getD_writeAt _ _ _ _ (by rw [hcl]; omega), h1, hcl]
      by_cases hji : j = i
      · subst hji
        simp only [List.getD_eq_getElem?_getD, List.getElem?_map, List.getElem?_eq_getElem (by omega : j < ms.length),
          List.getElem?_eq_getElem (by omega : j < es.length), Option.map_some, Option.getD_some]
        by_cases hqm : q < lm
        · rw [if_neg (by omega), if_pos (by omega), List.getElem?_append_left (by rw [hcl]; exact hqm)]
          congr 2; omega
        · rw [if_pos (by omega), List.getElem?_append_right (by rw [hcl]; omega), hcl]
          congr 2; omega
      · have hj' : j < i := by omega
        have : (le + lm) * j + (le + lm) ≤ (le + lm) * i := by
          rw [← Nat.mul_succ]; exact Nat.mul_le_mul_left _ hj'
        rw [if_neg (by omega), if_neg (by omega)]
        exact hv j hj' q hq

/-- What the call that shares the metadata guarantees. `Sh log` are its correct results. -/
def SharePost (n lm : Nat) (Sh : List Byte → Outcome (List (List Byte)) → Prop) : Post (Outcome (List Slice)) := fun r W h log =>
  Sh log ((fun l => l.map (contents h)) <$> r) ∧
  ∀ slices, r = ok slices → slices.length = n ∧
    ∀ s ∈ slices, s.len = lm ∧ own s.arr ⊆ W ∧ s.off + s.len ≤ (h s.arr).length

theorem wp_krawczykTail {env : Env} (hc : env.lib.Contract) {secret : Slice} {bs key : List Byte} {parts threshold : Int}
    {share : Slice → Prog (Outcome (List Slice))} {Sh : List Byte → List Byte → Outcome (List (List Byte)) → Prop}
    {W : Set Loc} {h : HeapF} {pre : List Byte}
    (hkey : key.length = 16) (hp : ArgsPass bs.length parts threshold)
    (hR : ∀ i < secret.len, (secret.arr, secret.off + i) ∈ R) (hs : Shows secret bs h)
    (hshare : ∀ (S : Set Loc) (V : Set Loc) (g : HeapF) (a : Arr) (kl : List Byte), own a ⊆ S → kl.length = 20 → g a = kl →
      wp S (share ⟨a, 0, 20, 20⟩) (SharePost parts.toNat 21 (Sh kl)) V g []) :
    wp R (krawczykTailP env secret key parts threshold share) (fun r W' h' log =>
      (∃ o log', log = pre ++ log' ∧ (fun l => l.map (contents h')) <$> r = (do
          let x ← encode env bs key parts threshold
          let ms ← o
          assemble parts.toNat x.2 ms) ∧
        ∀ x, encode env bs key parts threshold = ok x → Sh (keyLenPair key x.1) log' o) ∧
      ∀ slices, r = ok slices → (∃ buff c, slices = matrix buff c parts.toNat) ∧
        ∀ s ∈ slices, own s.arr ⊆ W' ∧ s.off + s.cap ≤ (h' s.arr).length ∧ s.len ≤ s.cap) W h pre := by
  unfold krawczykTailP
  refine wp_bind _ _ _ _ _ (wp_readAll (fun i hi => Or.inr (hR i hi)) hs.1 ?_)
  rw [window_contents hs]
  refine wp_call_outcome ?_ ?_
  · rintro ⟨ct, es⟩ hen
    obtain ⟨hn, hel, le, hle⟩ := encode_inv hc hkey hp hen
    have hkl := keyLenPair_length (ct := ct) hkey
    intro a ha
    refine wp_bind _ _ _ _ _ (wp_writeAll (fun i _ => Or.inr rfl) (by rw [Function.update_self]; simp [hkl]) ?_)
    rw [Function.update_self, Function.update_idem]
    have ew : writeAt (List.replicate 20 0) 0 (keyLenPair key ct) = keyLenPair key ct := by
      unfold writeAt; rw [hkl]; simp
    rw [ew]
    refine wp_bind _ _ _ _ _ (?_ : wp R (share ⟨a, 0, 20, 20⟩) _ (W ∪ own a) _ pre)
    have hd : Disjoint W (own a) := by
      rw [Set.disjoint_left]
      rintro ⟨b, i⟩ hb hx
      have : b = a := hx
      subst this
      exact ha i (Or.inl hb)
    have key1 := hshare (R ∪ own a) W (Function.update h a (keyLenPair key ct)) a (keyLenPair key ct)
      Set.subset_union_right hkl (by rw [Function.update_self])
    rw [show pre = pre ++ [] by simp]
    refine wp_log pre _ _ _ _ (wp_mono ?_ _ _ _ _ (wp_frame _ _ _ _ hd key1))
    rintro ss W' h' log' ⟨W0, rfl, hd0, hsh, hsl⟩
    refine wp_call_outcome ?_ ?_
    · rintro ms rfl
      obtain ⟨hml, hms⟩ := hsl ms rfl
      refine wp_assembleP hn hel hle hml
        (fun m hm => ⟨(hms m hm).1, (hms m hm).2.1.trans Set.subset_union_left, (hms m hm).2.2⟩) ?_
      intro b h'' hb hl hcont
      have hmem : ∀ m ∈ ms.map (contents h'), m.length = 21 := by
        intro m hm
        obtain ⟨s, hs1, rfl⟩ := List.mem_map.1 hm
        rw [contents_eq (hms s hs1).2.2, length_window, (hms s hs1).1]
      refine ⟨⟨ok (ms.map (contents h')), log', by simp, ?_, ?_⟩, ?_⟩
      · rw [hen, ok_bind, ok_bind, assemble_eq hn hel (by simpa using hml) hle hmem, map_ok, hcont]
      · intro x hx
        cases hen.symm.trans hx
        rw [map_ok] at hsh; exact hsh
      · intro slices e
        cases e
        exact ⟨⟨b, _, rfl⟩, matrix_owned Set.subset_union_right hl⟩
    · intro hno
      refine ⟨⟨(fun l => l.map (contents h')) <$> ss, log', by simp, ?_, ?_⟩, fun slices e => absurd e (nonok_map_ne hno _)⟩
      · rw [hen, ok_bind]
        cases ss with
        | ok a => exact absurd rfl (hno a)
        | _ => rfl
      · intro x hx
        cases hen.symm.trans hx
        exact hsh
  · intro hno
    refine ⟨⟨panic, [], by simp, ?_, fun x hx => absurd hx (hno x)⟩, fun slices e => absurd e (nonok_map_ne hno _)⟩
    cases hen : encode env bs key parts threshold with
    | ok x => exact absurd hen (hno x)
    | _ => rfl

theorem checkArgs_ok {len : Nat} {parts threshold : Int} (h : checkArgs len parts threshold = ok ()) :
    ArgsPass len parts threshold := by
  rw [checkArgs_eq] at h
  cases hk : kArgError len parts threshold with
  | none => exact kArgError_none.1 hk
  | some e => rw [hk] at h; cases h

theorem layout_share {buff : Arr} {N n : Nat} {W : Set Loc} {h : HeapF}
    (hs : ∀ s ∈ layout buff N n, own s.arr ⊆ W ∧ s.off + s.cap ≤ (h s.arr).length ∧ s.len ≤ s.cap) :
    (layout buff N n).length = n ∧
      ∀ s ∈ layout buff N n, s.len = N + 1 ∧ own s.arr ⊆ W ∧ s.off + s.len ≤ (h s.arr).length := by
  refine ⟨by simp [layout], fun s hm => ?_⟩
  obtain ⟨a, b, c⟩ := hs s hm
  refine ⟨?_, a, by omega⟩
  obtain ⟨i, -, rfl⟩ := List.mem_map.1 hm
  rfl

/-- The pure Split, without the pools. -/
theorem kTail_fst {env : Env} {bs key : List Byte} {parts threshold : Int}
    {sh : List Byte → Outcome (List (List Byte) × Pools)} {o : Outcome (List (List Byte))}
    (hp : checkArgs bs.length parts threshold = ok ())
    (ho : ∀ x, encode env bs key parts threshold = ok x → o = Prod.fst <$> sh (keyLenPair key x.1)) :
    (do let x ← encode env bs key parts threshold
        let ms ← o
        assemble parts.toNat x.2 ms) = Prod.fst <$> kTail env bs key parts threshold sh := by
  unfold kTail
  rw [hp, ok_bind]
  cases hen : encode env bs key parts threshold with
  | ok x =>
    rw [ok_bind, ok_bind, ho x hen]
    obtain ⟨ct, es⟩ := x
    simp only []
    generalize sh (keyLenPair key ct) = q
    cases q with
    | ok y =>
      rw [map_ok, ok_bind, ok_bind]
      obtain ⟨md, ps⟩ := y
      simp only []
      generalize assemble parts.toNat es md = q
      cases q <;> rfl
    | _ => rfl
  | _ => rfl

theorem kTail_nonok {env : Env} {bs key : List Byte} {parts threshold : Int}
    {sh : List Byte → Outcome (List (List Byte) × Pools)} {f : List Slice → List (List Byte)} {g : Unit → List Slice}
    (hp : ∀ u, checkArgs bs.length parts threshold ≠ ok u) :
    f <$> (g <$> checkArgs bs.length parts threshold) = Prod.fst <$> kTail env bs key parts threshold sh := by
  unfold kTail
  generalize checkArgs bs.length parts threshold = q at hp
  cases q with
  | ok u => exact absurd rfl (hp u)
  | _ => rfl

theorem wp_krawczykSplit (arch : Arch) {env : Env} (hc : env.lib.Contract) {secret : Slice} {bs : List Byte}
    {parts threshold : Int} {perm : List Nat} {W : Set Loc} {h : HeapF} (hperm : perm.Perm (List.range 255))
    (hR : ∀ i < secret.len, (secret.arr, secret.off + i) ∈ R) (hs : Shows secret bs h) :
    wp R (krawczykSplitP { env with arch } secret parts threshold perm)
      (CallPost arch (.krawczykSplit env secret parts threshold perm) [bs]) W h [] := by
  unfold krawczykSplitP
  rw [← hs.length]
  refine wp_call_outcome ?_ ?_
  · intro u hu
    refine wp_bind _ _ _ _ _ (wp_drawAll ?_)
    intro key hkey
    rw [List.nil_append]
    refine wp_mono ?_ _ _ _ _ (wp_krawczykTail (env := { env with arch }) hc hkey (checkArgs_ok hu) hR hs
      (Sh := fun kl log o => ∀ src, Delivers src log → ∀ ps, o = Prod.fst <$> Shamir.split arch kl parts threshold perm src ps) ?_)
    · rintro r W' h' log ⟨⟨o, log', rfl, hr, ho⟩, hsl⟩
      refine ⟨fun src hsrc ps => ?_, fun slices e => hsl slices e⟩
      rw [List.headD_cons, split_tail, hr]
      have ek : randRead src 0 (List.replicate 16 0) = key := by
        unfold randRead
        apply List.ext_getElem
        · simp [hkey]
        · intro i h1 h2
          rw [List.getElem_map, List.getElem_range, Nat.zero_add, hsrc i (by simp; omega), List.getD_eq_getElem?_getD,
            List.getElem?_append_left h2, List.getElem?_eq_getElem h2]; rfl
      have ef : Delivers (fun k => src (16 + k)) log' := by
        intro k hk
        show src (16 + k) = _
        rw [hsrc (16 + k) (by simp; omega)]
        simp only [List.getD_eq_getElem?_getD]
        rw [List.getElem?_append_right (by omega), hkey, Nat.add_sub_cancel_left]
      rw [ek]
      exact kTail_fst hu fun x hx => ho x hx _ ef ps
    · intro S V g a kl hS hkl hg
      refine wp_mono ?_ _ _ _ _ (wp_split (bs := kl) arch hperm (fun i _ => hS rfl) ⟨?_, ?_⟩)
      · rintro r W' h' log' ⟨h1, h2⟩
        refine ⟨h1, fun slices e => ?_⟩
        obtain ⟨⟨buff, rfl⟩, h4⟩ := h2 slices e
        exact layout_share h4
      · show 0 + 20 ≤ (g a).length
        rw [hg, hkl]
      · simp [contents, hg, ← hkl]
  · intro hno
    refine ⟨fun src _ ps => ?_, fun slices e => absurd e (nonok_map_ne hno _)⟩
    rw [List.headD_cons, split_tail]
    exact kTail_nonok hno

theorem wp_krawczykSplitWithRandomizer (arch : Arch) {env : Env} (hc : env.lib.Contract) (fuel : Nat) {secret : Slice}
    {bs : List Byte} {parts threshold : Int} {r : CSPRNG} {W : Set Loc} {h : HeapF}
    (hx : ∃ xs, r.getUniqueBytes fuel (BitVec.ofInt 8 parts) = ok xs)
    (hR : ∀ i < secret.len, (secret.arr, secret.off + i) ∈ R) (hs : Shows secret bs h) :
    wp R (krawczykSplitWithRandomizerP { env with arch } fuel secret parts threshold r)
      (CallPost arch (.krawczykSplitWithRandomizer env fuel secret parts threshold r) [bs]) W h [] := by
  unfold krawczykSplitWithRandomizerP
  rw [← hs.length]
  refine wp_call_outcome ?_ ?_
  · intro u hu
    refine wp_mono ?_ _ _ _ _ (wp_krawczykTail (env := { env with arch }) hc (by rw [length_read]; simp) (checkArgs_ok hu) hR hs
      (Sh := fun kl _ o => ∃ ps, o = Prod.fst <$> Shamir.splitWithRandomizer arch fuel kl parts threshold r ps) ?_)
    · rintro o' W' h' log ⟨⟨o, log', rfl, hr, ho⟩, hsl⟩
      refine ⟨?_, fun slices e => hsl slices e⟩
      show ∃ ps, _
      simp only [List.headD_cons, splitR_tail, hr]
      cases hen : encode { env with arch } bs (r.read (List.replicate 16 0)) parts threshold with
      | ok x =>
        obtain ⟨ps, hps⟩ := ho x hen
        refine ⟨ps, ?_⟩
        rw [← hen]
        exact kTail_fst hu fun y hy => by cases hen.symm.trans hy; exact hps
      | _ =>
        refine ⟨⟨⟨[], 0⟩, ⟨[], 0⟩⟩, ?_⟩
        rw [← hen]
        exact kTail_fst hu fun y hy => by cases hen.symm.trans hy
    · intro S V g a kl hS hkl hg
      refine wp_mono ?_ _ _ _ _ (wp_splitWithRandomizer (bs := kl) arch fuel hx (fun i _ => hS rfl) ⟨?_, ?_⟩)
      · rintro r W' h' log' ⟨h1, h2⟩
        refine ⟨h1, fun slices e => ?_⟩
        obtain ⟨⟨buff, rfl⟩, h4⟩ := h2 slices e
        exact layout_share h4
      · show 0 + 20 ≤ (g a).length
        rw [hg, hkl]
      · simp [contents, hg, ← hkl]
  · intro hno
    refine ⟨⟨⟨⟨[], 0⟩, ⟨[], 0⟩⟩, ?_⟩, fun slices e => absurd e (nonok_map_ne hno _)⟩
    rw [List.headD_cons, splitR_tail]
    exact kTail_nonok hno

end Verif.Proofs.Own
