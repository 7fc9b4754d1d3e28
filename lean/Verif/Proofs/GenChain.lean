import Verif.Proofs.Order

/-! No entry of the fixed-base table is the point at infinity: a checked computation. -/

namespace Verif
open Spec

namespace Chain

/-- Chord step modulo `p`. -/
def addP (P Q : ℕ × ℕ) : Option (ℕ × ℕ) :=
  let d := P.1 + (p - Q.1)
  let w := inv p d
  if d * w % p = 1 then
    let l := (P.2 + (p - Q.2)) * w % p
    let x' := (l * l + (p - P.1) + (p - Q.1)) % p
    some (x', (l * (P.1 + (p - x')) + (p - P.2)) % p)
  else none

theorem addP_spec {P Q R : ℕ × ℕ} {A B : Pt} (h : addP P Q = some R) (hg : Good P) (hg' : Good Q) (hA : IsPt A (P.1 : Fp) P.2)
    (hB : IsPt B (Q.1 : Fp) Q.2) : Good R ∧ IsPt (A + B) (R.1 : Fp) R.2 := by
  have hp : ((p : ℕ) : Fp) = 0 := ZMod.natCast_self p
  unfold addP at h
  dsimp only at h
  split at h
  · rename_i hw
    have hw' : ((P.1 : Fp) - Q.1) * (inv p (P.1 + (p - Q.1)) : Fp) = 1 := by
      have := congrArg (Nat.cast (R := Fp)) hw
      rw [cast_mod_p hp] at this; push_cast at this; rw [cast_sub_p hp hg'.1] at this
      rw [← this]; ring
    generalize (inv p (P.1 + (p - Q.1))) = w at h hw'
    generalize hl : (P.2 + (p - Q.2)) * w % p = l at h
    generalize hx : (l * l + (p - P.1) + (p - Q.1)) % p = x' at h
    have hxp : x' ≤ p := by rw [← hx]; exact (Nat.mod_lt _ p_pos').le
    have hle : (l : Fp) * (P.1 - Q.1) = P.2 - Q.2 := by
      rw [← hl, cast_mod_p hp]; push_cast; rw [cast_sub_p hp hg'.2]; linear_combination ((P.2 : Fp) - Q.2) * hw'
    have hxe : (x' : Fp) = (l : Fp) ^ 2 - P.1 - Q.1 := by
      rw [← hx, cast_mod_p hp]; push_cast; rw [cast_sub_p hp hg.1, cast_sub_p hp hg'.1]; ring
    have := isPt_add (l : Fp) hA hB (sub_ne_zero.1 (left_ne_zero_of_mul_eq_one hw')) hle
    cases h
    refine ⟨⟨hxp, (Nat.mod_lt _ p_pos').le⟩, this.congr hxe.symm ?_⟩
    dsimp only
    rw [cast_mod_p hp]; push_cast; rw [cast_sub_p hp hg.2, cast_sub_p hp hxp, hxe]; ring
  · cases h

/-- `U, U + B, …, U + k B` are all finite. -/
def row (B : ℕ × ℕ) : ℕ → ℕ × ℕ → Bool
  | 0, _ => true
  | k + 1, U => match addP U B with
    | none => false
    | some R => row B k R

theorem row_spec {B : ℕ × ℕ} {PB : Pt} (hg : Good B) (hB : IsPt PB (B.1 : Fp) B.2) : ∀ (k : ℕ) (U : ℕ × ℕ) (PU : Pt), row B k U = true → Good U →
    IsPt PU (U.1 : Fp) U.2 → ∀ i ≤ k, i • PB + PU ≠ 0
  | 0, U, PU, _, _, hU, i, hi => by
    have : i = 0 := by omega
    subst this; rw [zero_nsmul, zero_add]; exact hU.ne_zero
  | k + 1, U, PU, h, hgU, hU, i, hi => by
    rw [row] at h
    split at h
    · cases h
    · rename_i R hR
      obtain ⟨g, hs⟩ := addP_spec hR hgU hg hU hB
      rcases i with _ | i
      · rw [zero_nsmul, zero_add]; exact hU.ne_zero
      · have := row_spec hg hB k R _ h g hs i (by omega)
        rw [show (i + 1) • PB + PU = i • PB + (PU + PB) by rw [add_smul, one_smul]; abel]
        exact this

/-- Four tangent steps. -/
def dbl4 (P : ℕ × ℕ) : Option (ℕ × ℕ) := do
  let a ← dbl P
  let b ← dbl a
  let c ← dbl b
  dbl c

theorem dbl4_spec {P Q : ℕ × ℕ} {A : Pt} (h : dbl4 P = some Q) (hg : Good P) (hA : IsPt A (P.1 : Fp) P.2) :
    Good Q ∧ IsPt (16 • A) (Q.1 : Fp) Q.2 := by
  have hp : ((p : ℕ) : Fp) = 0 := ZMod.natCast_self p
  unfold dbl4 at h
  simp only [Option.bind_eq_bind, Option.bind_eq_some_iff] at h
  obtain ⟨a, ha, b, hb, c, hc, hd⟩ := h
  obtain ⟨ga, ia⟩ := dbl_spec hp ha hg hA
  obtain ⟨gb, ib⟩ := dbl_spec hp hb ga ia
  obtain ⟨gc, ic⟩ := dbl_spec hp hc gb ib
  obtain ⟨gd, id⟩ := dbl_spec hp hd gc ic
  refine ⟨gd, ?_⟩
  rwa [show 16 • A = A + A + (A + A) + (A + A + (A + A)) + (A + A + (A + A) + (A + A + (A + A))) by abel]

/-- One row, and the base and offset of the next one. -/
def rowOk (d d' : (ℕ × ℕ) × (ℕ × ℕ)) : Bool :=
  row d.1 15 d.2 && decide (dbl4 d.1 = some d'.1) && decide (dbl d.2 = some d'.2)

/-- The rows starting with `d`; the list holds the bases and offsets of the following rows. -/
def rowsOk : (ℕ × ℕ) × (ℕ × ℕ) → List ((ℕ × ℕ) × (ℕ × ℕ)) → Bool
  | _, [] => true
  | d, d' :: l => rowOk d d' && rowsOk d' l

theorem rowsOk_append : ∀ (d : (ℕ × ℕ) × (ℕ × ℕ)) (l l' : List ((ℕ × ℕ) × (ℕ × ℕ))),
    rowsOk d (l ++ l') = (rowsOk d l && rowsOk (l.getLastD d) l')
  | _, [], _ => by simp [rowsOk]
  | d, d' :: l, l' => by
    rw [List.cons_append, rowsOk, rowsOk, rowsOk_append d' l l', List.getLastD_cons, Bool.and_assoc]

theorem rows_spec : ∀ (l : List ((ℕ × ℕ) × (ℕ × ℕ))) (d : (ℕ × ℕ) × (ℕ × ℕ)) (PB PU : Pt), rowsOk d l = true → Good d.1 → Good d.2 →
    IsPt PB (d.1.1 : Fp) d.1.2 → IsPt PU (d.2.1 : Fp) d.2.2 →
    (∀ j < l.length, ∀ i ≤ 15, i • (16 ^ j • PB) + 2 ^ j • PU ≠ 0) ∧ Good (l.getLastD d).1 ∧ Good (l.getLastD d).2 ∧
      IsPt (16 ^ l.length • PB) ((l.getLastD d).1.1 : Fp) (l.getLastD d).1.2 ∧ IsPt (2 ^ l.length • PU) ((l.getLastD d).2.1 : Fp) (l.getLastD d).2.2
  | [], d, PB, PU, h, gB, gU, hB, hU => by
    refine ⟨fun j hj => by simp at hj, gB, gU, ?_, ?_⟩ <;> simpa
  | d' :: l, d, PB, PU, h, gB, gU, hB, hU => by
    have hp : ((p : ℕ) : Fp) = 0 := ZMod.natCast_self p
    rw [rowsOk, rowOk, Bool.and_eq_true, Bool.and_eq_true, Bool.and_eq_true, decide_eq_true_eq, decide_eq_true_eq] at h
    obtain ⟨⟨⟨hrow, hB'⟩, hU'⟩, hl⟩ := h
    obtain ⟨g1, i1⟩ := dbl4_spec hB' gB hB
    obtain ⟨g2, i2⟩ := dbl_spec hp hU' gU hU
    obtain ⟨h1, h2, h3, h4, h5⟩ := rows_spec l d' _ _ hl g1 g2 i1 i2
    have e1 : ∀ m : ℕ, 16 ^ (m + 1) • PB = 16 ^ m • (16 • PB) := fun m => by rw [pow_succ, mul_smul]
    have e2 : ∀ m : ℕ, 2 ^ (m + 1) • PU = 2 ^ m • (PU + PU) := fun m => by rw [pow_succ, mul_smul, two_smul]
    rw [List.getLastD_cons, List.length_cons, e1, e2]
    refine ⟨fun j hj i hi => ?_, h2, h3, h4, h5⟩
    rcases j with _ | j
    · simpa using row_spec gB hB 15 d.2 PU hrow gU hU i hi
    · rw [e1, e2]; exact h1 j (by omega) i hi

/-- The point with x-coordinate "The scalar for this x is unknown" and even y. -/
def numsX : ℕ := 0x546865207363616c617220666f722074686973207820697320756e6b6e6f776e
def numsY : ℕ := 0x28ebb7e4e1f6a12e1c0faaf47e09c33305d50890856930e67e5299348ff7f20e

/-! The bases `16 ^ j G` and offsets `2 ^ j U` of the rows `0, …, 63`. -/

def data0 : (ℕ × ℕ) × (ℕ × ℕ) :=
  ((0x79be667ef9dcbbac55a06295ce870b07029bfcdb2dce28d959f2815b16f81798, 0x483ada7726a3c4655da4fbfc0e1108a8fd17b448a68554199c47d08ffb10d4b8),
    (0x3a9ed3736eed3eec9aeb5ac021b5465256817b1f08de6cd0fbcee548ba044bb5, 0x7bcc5928bdc9c023dfc663b89e4f6969ab7517988e600ec1d242010c45c7974a))

def chunk0 : List ((ℕ × ℕ) × (ℕ × ℕ)) :=
  [((0xe60fce93b59e9ec53011aabc21c23e97b2a31369b87a5ae9c44ee89e2a6dec0a, 0xf7e3507399e595929db99f34f57937101296891e44d23f0be1f32cce69616821),
    (0x1b8462eb1ccdf7b2b8372f2fcec1f479ab07c09fcb26d6c30965ec734d654f81, 0x62f6755b4a7891d55de6427fbc37d33e4eea418a2c04392a3d118070ccc9025)),
   ((0x8282263212c609d9ea2a6e3e172de238d8c39cabd5ac1ca10646e23fd5f51508, 0x11f8a8098557dfe45e8256e830b60ace62d613ac2f7b17bed31b6eaff6e26caf),
    (0x6ae991de18418b490160194fa735eb72c299b9871981a4f9aa717ad20bcdcf13, 0x7ee8011a40f384f2e50add2d970051732787cc7c89dafb66301bc94d024b913f)),
   ((0x175e159f728b865a72f99cc6c6fc846de0b93833fd2222ed73fce5b551e5b739, 0xd3506e0d9e3c79eba4ef97a51ff71f5eacb5955add24345c6efa6ffee9fed695),
    (0x64850a0476870a442cfa57e04e4707f7eccc5e9912dbcb073b457317717f5686, 0x7c5facd291a6defba1837cb93bcbd0f5bc37572e68ccb2a0c062a15546656fcc)),
   ((0x363d90d447b00c9c99ceac05b6262ee053441c7e55552ffe526bad8f83ff4640, 0x4e273adfc732221953b445397f3363145b9a89008199ecb62003c7f3bee9de9),
    (0x92133195a4fd0c597e0cf65e8ce1d939e333f7a8441523aa31e339e12ae51e8d, 0x556a3887a7d579e87de7f498c54bf242ca4b8a28b959e21ceec4555b8fabccf)),
   ((0x8b4b5f165df3c2be8c6244b5b745638843e4a781a15bcd1b69f79a55dffdf80c, 0x4aad0a6f68d308b4b3fbd7813ab0da04f9e336546162ee56b3eff0c65fd4fd36),
    (0xae5fb021e9256cc06236d667b76b9bdf304a4683d2916ffe489cf0196b4c5683, 0xe768366b5c8d36b618e45550d57493e241fed17d12627e37b29b4b74d3603696)),
   ((0x723cbaa6e5db996d6bf771c00bd548c7b700dbffa6c0e77bcb6115925232fcda, 0x96e867b5595cc498a921137488824d6e2660a0653779494801dc069d9eb39f5f),
    (0x782d5c9ad970322edeff2e7b57844184c589a4dac042fcf386c1a9f826c1babb, 0x27bba565405cb39264762d97cbaff5521bc38b2056afe313556542d3f200eb06)),
   ((0xeebfa4d493bebf98ba5feec812c2d3b50947961237a919839a533eca0e7dd7fa, 0x5d9a8ca3970ef0f269ee7edaf178089d9ae4cdc3a711f712ddfd4fdae1de8999),
    (0xebc119d38e794efa0085fcbd5affac35f73c7428590ede0f6365f1ea87c65b4b, 0x183a99923911b1b1cd9b0fea3667b6e152af74998d32beb3d2ecb91daf6e8a06))]

def chunk1 : List ((ℕ × ℕ) × (ℕ × ℕ)) :=
  [((0x100f44da696e71672791d0a09b7bde459f1215a29b3c03bfefd7835b39a48db0, 0xcdd9e13192a00b772ec8f3300c090666b7ff4a18ff5195ac0fbd5cd62bc65a09),
    (0xbc4bb9a6292aa09f5c66dc9b667c46426b08211fa9a80f5e00f3f17b21f275de, 0x5d0e049239a862ecb96495726f11bc09cebd9f29d9407ab31603054dd9b76b07)),
   ((0xe1031be262c7ed1b1dc9227a4a04c017a77f8d4464f3b3852c8acde6e534fd2d, 0x9d7061928940405e6bb6a4176597535af292dd419e1ced79a44f18f29456a00d),
    (0xc8e595d2666f49131f375b6781b9113a0d0760e59477ca178863828b307488f0, 0xa82cf2a9d823af135c23a04bbc12dd812c352a4827e190308e089d9d9c316596)),
   ((0xfeea6cae46d55b530ac2839f143bd7ec5cf8b266a41d6af52d5e688d9094696d, 0xe57c6b6c97dce1bab06e4e12bf3ecd5c981c8957cc41442d3155debf18090088),
    (0x49e7429be0d97bf93f17e9a853fedb6aa9bc6edd8e85f44b9d2f1469b2d3b178, 0xff9e5dfc2746679e9826039d578bac31c08fbaaca075214c0073c50f74568fff)),
   ((0xda67a91d91049cdcb367be4be6ffca3cfeed657d808583de33fa978bc1ec6cb1, 0x9bacaa35481642bc41f463f7ec9780e5dec7adc508f740a17e9ea8e27a68be1d),
    (0x9a1db7bf53241ed1df8d3ea0f70c0b2676b43ebcbcb4622a09704b0a3067400a, 0xe3638ad295740505455b2e1ed495c57a54ed8e8fc647a6b9c69b7dd0715cef52)),
   ((0x53904faa0b334cdda6e000935ef22151ec08d0f7bb11069f57545ccc1a37b7c0, 0x5bc087d0bc80106d88c9eccac20d3c1c13999981e14434699dcb096b022771c8),
    (0x50cd2e16997d7d4598bb2d9b61aceaff5ad5f38c8286a0e1d08055ad726c7800, 0xdd19c3bc08b8d97088f9de15941f5fa6402bbbb5fdc708bcfc08844eb23733b)),
   ((0x8e7bcd0bd35983a7719cca7764ca906779b53a043a9b8bcaeff959f43ad86047, 0x10b7770b2a3da4b3940310420ca9514579e88e2e47fd68b3ea10047e8460372a),
    (0x4bd266bd4a730879cb06d8dcbd8e5854c50b6221d83e0a103afcb2a9a64cca67, 0xa4654a1d835a51f05a8772001768c549909212e578e3b1d1df93595993650863)),
   ((0x385eed34c1cdff21e6d0818689b81bde71a7f4f18397e6690a841e1599c43862, 0x283bebc3e8ea23f56701de19e9ebf4576b304eec2086dc8cc0458fe5542e5453),
    (0x217de5b0a47e8decb9d8dc3dc8fcfd8203c514bb9d7bb5efb03584baa1baaff, 0xc77bddc03af15e63912e51c719bd818667f999ed9bd801b811bc289bf12864ed))]

def chunk2 : List ((ℕ × ℕ) × (ℕ × ℕ)) :=
  [((0x6f9d9b803ecf191637c73a4413dfa180fddf84a5947fbc9c606ed86c3fac3a7, 0x7c80c68e603059ba69b8e2a30e45c4d47ea4dd2f5c281002d86890603a842160),
    (0x761cab413916a1f5e131f337e90235196199f78987ef390b3f2d8bfab0e9bbc6, 0xf10272dff7e91c403565da8517fd3011bde7b7970526d3c3f00fb28ef26dbd91)),
   ((0x3322d401243c4e2582a2147c104d6ecbf774d163db0f5e5313b7e0e742d0e6bd, 0x56e70797e9664ef5bfb019bc4ddaf9b72805f63ea2873af624f3a2e96c28b2a0),
    (0x60b0106725cf781de78ba725405086973f2ff6ec0151151506e193841fddda7a, 0x624ccf87f0ec21b9082efbc46d4db8785d20fb8edfe663fc46660bb7098c96eb)),
   ((0x85672c7d2de0b7da2bd1770d89665868741b3f9af7643397721d74d28134ab83, 0x7c481b9b5b43b2eb6374049bfa62c2e5e77f17fcc5298f44c8e3094f790313a6),
    (0xa707efc489165c757edcea3cce729b4491f041423fc6ea9a704f52df0c8a0650, 0xf2e7657c6c618494c01c5a90d06b625bc9416d63f7b8f809dda5076f74fa2c92)),
   ((0x948bf809b1988a46b06c9f1919413b10f9226c60f668832ffd959af60c82a0a, 0x53a562856dcb6646dc6b74c5d1c3418c6d4dff08c97cd2bed4cb7f88d8c8e589),
    (0x6efd8760aed4f2390bd97a00063794c4ef14acc9f5b948624c7f8b513ff35278, 0x74acac29694c5307aa221b37f2ea068aa269fcd3c6d85aafa8c8eac117d7f997)),
   ((0x6260ce7f461801c34f067ce0f02873a8f1b0e44dfc69752accecd819f38fd8e8, 0xbc2da82b6fa5b571a7f09049776a1ef7ecd292238051c198c1a84e95b2b4ae17),
    (0x2def7e677906cf3f3677e7b601b0a8f8985fbd9b23265ea718a5c16e0139f0a8, 0x650a89bbdf8c8326d364fae7558de827a529780c9b7bf8f1c69256327c59c74c)),
   ((0xe5037de0afc1d8d43d8348414bbf4103043ec8f575bfdc432953cc8d2037fa2d, 0x4571534baa94d3b5f9f98d09fb990bddbd5f5b03ec481f10e0e5dc841d755bda),
    (0x9705d56ff75c7d2cbacc47a4a6cf8b10300c688c0fdbd1b1528f41b9652d49fa, 0xc53f7f11896f2edbfc957dd72cc90856c5df9d8643e424897018284384201b98)),
   ((0xe06372b0f4a207adf5ea905e8f1771b4e7e8dbd1c6a6c5b725866a0ae4fce725, 0x7a908974bce18cfe12a27bb2ad5a488cd7484a7787104870b27034f94eee31dd),
    (0x5b27aec1c644f0a9ba7f64869a960ea6028343abda3feab24a2d6add754866a2, 0x3d1f365c2aee6c1eab2f1879429b62755d1bac852998ef258a914bfcca280b43))]

def chunk3 : List ((ℕ × ℕ) × (ℕ × ℕ)) :=
  [((0x213c7a715cd5d45358d0bbf9dc0ce02204b10bdde2a3f58540ad6908d0559754, 0x4b6dad0b5ae462507013ad06245ba190bb4850f5f36a7eeddff2c27534b458f2),
    (0x53512a214a65991482cc157fda02880f7c4ff9e647a93136c1e557259ce7132f, 0x3ccac75b13cc40fa5ab2e01780f55f2eb8e6a7e722b2e6b113a283160b3c99d3)),
   ((0x4e7c272a7af4b34e8dbb9352a5419a87e2838c70adc62cddf0cc3a3b08fbd53c, 0x17749c766c9d0b18e16fd09f6def681b530b9614bff7dd33e0b3941817dcaae6),
    (0x534e9d8bea140bb4970b516c42f2677dc413f429b7c56dee261f60dec68f9d8, 0xe55aff901098b0a9ea377acdb62dc479da1095142654107a28c68e9f073b1cba)),
   ((0xfea74e3dbe778b1b10f238ad61686aa5c76e3db2be43057632427e2840fb27b6, 0x6e0568db9b0b13297cf674deccb6af93126b596b973f7b77701d3db7f23cb96f),
    (0xdd7503a20a3e15e739eb9b1f856d6e33be4890b2f40cfea81bdf516c0b942731, 0xca9cd04ec3789ab45088b819953e08a00b8adb8bb2b6f7c8661a2d3b83a54c77)),
   ((0x76e64113f677cf0e10a2570d599968d31544e179b760432952c02a4417bdde39, 0xc90ddf8dee4e95cf577066d70681f0d35e2a33d2b56d2032b4b1752d1901ac01),
    (0xc8116b601f8d72c62495721546b844f6bf6bae0b07575a77f1f6c6c25524fa2b, 0xb7477ca6de2004df34882c653a46821b53372f13ed822cbf40c20bd9ddd1d6bd)),
   ((0xc738c56b03b2abe1e8281baa743f8f9a8f7cc643df26cbee3ab150242bcbb891, 0x893fb578951ad2537f718f2eacbfbbbb82314eef7880cfe917e735d9699a84c3),
    (0xe7ff8d5c83bd584605c967b537ac0f36b9ffe9d20fc7531eef183cb17369c066, 0x9a9c3c4be482031bf6dc69fa843ea90ede16547926ba201b5f05b00adbcc30a8)),
   ((0xd895626548b65b81e264c7637c972877d1d72e5f3a925014372e9f6588f6c14b, 0xfebfaa38f2bc7eae728ec60818c340eb03428d632bb067e179363ed75d7d991f),
    (0xd8f08d18ece618555b06a3b50ac8e7cfa6375446cbc7c8dbad924f7869e7f00e, 0x46a91d23910957ebdb830624738399542cea05702f67a09dd7d192170646606e)),
   ((0xb8da94032a957518eb0f6433571e8761ceffc73693e84edd49150a564f676e03, 0x2804dfa44805a1e4d7c99cc9762808b092cc584d95ff3b511488e4e74efdf6e7),
    (0xca3c008ecf9efd5f75cc1035f9edaa7c46b17d259895b0e3b3523b6eeee9daaf, 0xa676aea9003ce9bb128ffc34deb96b0f72179d2877406d046d0c8b5c3572f4d2))]

def chunk4 : List ((ℕ × ℕ) × (ℕ × ℕ)) :=
  [((0xe80fea14441fb33a7d8adab9475d7fab2019effb5156a792f1a11778e3c0df5d, 0xeed1de7f638e00771e89768ca3ca94472d155e80af322ea9fcb4291b6ac9ec78),
    (0x8a4e96913533875db855950065c90785a78233acef24113cf6ed543ae6a40024, 0x57d94448d091df9602e6c7fc3f88934d45a7c7618da574b4d4c15a66925bcf4)),
   ((0xa301697bdfcd704313ba48e51d567543f2a182031efd6915ddc07bbcc4e16070, 0x7370f91cfb67e4f5081809fa25d40f9b1735dbf7c0a11a130c0d1a041e177ea1),
    (0x458f8dbf9cef8cbc5d2046c742ca62970e8fc76a0ad22fd3af4f9a8e2173d857, 0x57074c8f14a36b5f069245176e3dc7b64d12a08d08d00565e70e0ca156f29820)),
   ((0x90ad85b389d6b936463f9d0512678de208cc330b11307fffab7ac63e3fb04ed4, 0xe507a3620a38261affdcbd9427222b839aefabe1582894d991d4d48cb6ef150),
    (0xd2fff4de9ecfdbd2dd99ebaed038415b19b6c44c9717926c09e9a6683fdfd377, 0xa7e8ef8b89877e3ccca566cc7b7dd5370d157cab121d1623b6880567ac66fa8b)),
   ((0x8f68b9d2f63b5f339239c1ad981f162ee88c5678723ea3351b7b444c9ec4c0da, 0x662a9f2dba063986de1d90c2b6be215dbbea2cfe95510bfdf23cbf79501fff82),
    (0xb3b5422f1361ce5cbf7cc0613c78aa88a02683eecddeaaf30f5516cb291632e0, 0x1790cb50cc2c760ac7c2e97cc44aff2986c73be559a881808d036e7a94347156)),
   ((0xe4f3fb0176af85d65ff99ff9198c36091f48e86503681e3e6686fd5053231e11, 0x1e63633ad0ef4f1c1661a6d0ea02b7286cc7e74ec951d1c9822c38576feb73bc),
    (0x2e01d33ac10caa03ab514f7546226f6769a08f0156017b64a2436a34447bfdbe, 0xf5bd77a12c61f2ef60a8c937cf29e1e6882b12c03e7a7763f1ea498e09207836)),
   ((0x8c00fa9b18ebf331eb961537a45a4266c7034f2f0d4e1d0716fb6eae20eae29e, 0xefa47267fea521a1a9dc343a3736c974c2fadafa81e36c54e7d2a4c66702414b),
    (0x934807e360b79e08d1e289242478db590331c1716366f421eda4417bc0699286, 0xf7f83c2650e7a77e2f760e687f475858b2c2d770195c199d33a84324e23f02ef)),
   ((0xe7a26ce69dd4829f3e10cec0a9e98ed3143d084f308b92c0997fddfc60cb3e41, 0x2a758e300fa7984b471b006a1aafbb18d0a6b2c0420e83e20e8a9421cf2cfd51),
    (0xaccea070aa6709bfefd88be4bef1d485a0da83e7ac9a1eb0eda8387eb9fe666b, 0x93fc1c9dfed8fff960ef750e94dd23425fa08c3d8eda3eee07f51381196080e3))]

def chunk5 : List ((ℕ × ℕ) × (ℕ × ℕ)) :=
  [((0xb6459e0ee3662ec8d23540c223bcbdc571cbcb967d79424f3cf29eb3de6b80ef, 0x67c876d06f3e06de1dadf16e5661db3c4b3ae6d48e35b2ff30bf0b61a71ba45),
    (0xa488f832bf3e57b5225f748754ba2b5cd9657c7175198ae122c3d1cee336ef2, 0x4e326d40648cf2692db4253255391fca5c2b48d744a9e39fbd1293dc827e9021)),
   ((0xd68a80c8280bb840793234aa118f06231d6f1fc67e73c5a5deda0f5b496943e8, 0xdb8ba9fff4b586d00c4b1f9177b0e28b5b0e7b8f7845295a294c84266b133120),
    (0xa473de46a554667a368fd573168dea233f81153de1b35b2690da886371e6c131, 0x4ba0b46292aed9367a2bf9e9de48a08a874fd681aef86a1558b49e4f13dbbcec)),
   ((0x324aed7df65c804252dc0270907a30b09612aeb973449cea4095980fc28d3d5d, 0x648a365774b61f2ff130c0c35aec1f4f19213b0c7e332843967224af96ab7c84),
    (0x476d7ba435177a71299267f414ef275d48b434e1380c1afd9fac4606f8e02be0, 0x7f1255fa57a60447c14d65741d7774b9695e6d251b46912dd33c77f3f756edc2)),
   ((0x4df9c14919cde61f6d51dfdbe5fee5dceec4143ba8d1ca888e8bd373fd054c96, 0x35ec51092d8728050974c23a1d85d4b5d506cdc288490192ebac06cad10d5d),
    (0x4f62ab4cb7fb0d13126201219841e932b0de312d674cd002315594e981dfb3a1, 0x1145fdd8c5d16653a9129b0c39fcbbd95968d22cff2127bf91e8984735e2834f)),
   ((0x9c3919a84a474870faed8a9c1cc66021523489054d7f0308cbfc99c8ac1f98cd, 0xddb84f0f4a4ddd57584f044bf260e641905326f76c64c8e6be7e5e03d4fc599d),
    (0x110f05a7489138c651e48771d505c7ce68bd6e61067cf4c33933441fa236f263, 0x761652d178d0d5cf6189501d02d70782f10f83527894d794f93dff6e90a3b16)),
   ((0x6057170b1dd12fdf8de05f281d8e06bb91e1493a8b91d4cc5a21382120a959e5, 0x9a1af0b26a6a4807add9a2daf71df262465152bc3ee24c65e899be932385a2a8),
    (0x81f42236a39a14ed276466522edb719f2fb72b2c571ed67343e2c574fb60e5b, 0x34f10ee56c1d5e0251e8ba8c9f129391521f06012ebb45497377967ad8347e4b)),
   ((0xa576df8e23a08411421439a4518da31880cef0fba7d4df12b1a6973eecb94266, 0x40a6bf20e76640b2c92b97afe58cd82c432e10a7f514d9f3ee8be11ae1b28ec8),
    (0x2dc8f27bb3bdcaa92feace80f2f6212f8209477e531e74cbf497372e9a2f2263, 0x7feb63a796b55beeffa180bafef47776fc4fabd42ccdcd9764b4bab310350790))]

def chunk6 : List ((ℕ × ℕ) × (ℕ × ℕ)) :=
  [((0x7778a78c28dec3e30a05fe9629de8c38bb30d1f5cf9a3a208f763889be58ad71, 0x34626d9ab5a5b22ff7098e12f2ff580087b38411ff24ac563b513fc1fd9f43ac),
    (0x118d5053fa3ef05c810cf9063a410f5338a9e6bf513b9a7f5259112ff84ad7e4, 0xa371fc9bc918252827d6c84232e4e44a9d32eafa84f1a02da86039d106309e92)),
   ((0x928955ee637a84463729fd30e7afd2ed5f96274e5ad7e5cb09eda9c06d903ac, 0xc25621003d3f42a827b78a13093a95eeac3d26efa8a8d83fc5180e935bcd091f),
    (0x568b3e2a2db4792e4ef4ee6614e201f8a847fdca38bb003badb06d741e4f999b, 0x7334b39561cbcce449d83eed205a4c40d91d2751938ba7d06ed9e5a5e1ffea7c)),
   ((0x85d0fef3ec6db109399064f3a0e3b2855645b4a907ad354527aae75163d82751, 0x1f03648413a38c0be29d496e582cf5663e8751e96877331582c237a24eb1f962),
    (0x7c32fcd713305cc744fc4ff52d315e2dd4cdf7c031b41a64db6ecbf9fd4edcbb, 0x7f002bf7b8e1b8f40a4a4f2b1922983efb901e1359cbe9348a31d91b7bc86bf4)),
   ((0xff2b0dce97eece97c1c9b6041798b85dfdfb6d8882da20308f5404824526087e, 0x493d13fef524ba188af4c4dc54d07936c7b7ed6fb90e2ceb2c951e01f0c29907),
    (0x29d70da592094c96e293c11542b9dbabb30df8dbac98416b65b0b75bb3ca446e, 0xa8a5aa3cc3269596dd8a9d9887a3b772efa1c6683f8a947fff80c66231c70799)),
   ((0x827fbbe4b1e880ea9ed2b2e6301b212b57f1ee148cd6dd28780e5e2cf856e241, 0xc60f9c923c727b0b71bef2c67d1d12687ff7a63186903166d605b68baec293ec),
    (0x7885bb7925196ae6f45b66580f3c04f5a3b76cb61d60eaf245cb35c22552267a, 0x9839aae2b4d9de011a119d3ad269a821dd88d2872f031910a2f3cc222e8555a7)),
   ((0xeaa649f21f51bdbae7be4ae34ce6e5217a58fdce7f47f9aa7f3b58fa2120e2b3, 0xbe3279ed5bbbb03ac69a80f89879aa5a01a6b965f13f7e59d47a5305ba5ad93d),
    (0x422f0291f51c4dfaf2333227015e4c1ec8175b1a8ab6b2f60a9e2917242d940, 0x51ae32b00ed5d39de1d614370d363d59181a68b64e052bc59d132da09c1f422e)),
   ((0xe4a42d43c5cf169d9391df6decf42ee541b6d8f0c9a137401e23632dda34d24f, 0x4d9f92e716d1c73526fc99ccfb8ad34ce886eedfa8d8e4f13a7f7131deba9414),
    (0x43cf2273e372157c02180640594c144c93f64fa175f28cd25e7efebb14028a93, 0x1f8b092d4cabc6003378237410eafd0437d6436f0606493206f8de6d94059d4e))]

def chunk7 : List ((ℕ × ℕ) × (ℕ × ℕ)) :=
  [((0x1ec80fef360cbdd954160fadab352b6b92b53576a88fea4947173b9d4300bf19, 0xaeefe93756b5340d2f3a4958a7abbf5e0146e77f6295a07b671cdc1cc107cefd),
    (0x9f10aba75a7b9fa0233bf53cd819ba2d919f8acf9a5e67172c93229d547a40bd, 0x85485295254a445687b065aadad21f32b31735e196333fb811117a00d0bf2361)),
   ((0x146a778c04670c2f91b00af4680dfa8bce3490717d58ba889ddb5928366642be, 0xb318e0ec3354028add669827f9d4b2870aaa971d2f7e5ed1d0b297483d83efd0),
    (0xb365ce49d21ca341c173b6d72238c56bf080d218a89e57c6ce1664f65c290a44, 0xe77935dd75d26531d4045f723b4b5dc406608f8b60f58989d2ac4002c304cf04)),
   ((0xfa50c0f61d22e5f07e3acebb1aa07b128d0012209a28b9776d76a8793180eef9, 0x6b84c6922397eba9b72cd2872281a68a5e683293a57a213b38cd8d7d3f4f2811),
    (0x38186a1d6092b158554f3f6dc6de049a2037577b2da8db39163fde30b19dbf2a, 0xa8cf0459c7ea28a415d01f447566d54f986cab5eb272326442f32efcb6c43c8)),
   ((0xda1d61d0ca721a11b1a5bf6b7d88e8421a288ab5d5bba5220e53d32b5f067ec2, 0x8157f55a7c99306c79c0766161c91e2966a73899d279b48a655fba0f1ad836f1),
    (0xd8e5f3bac152215a8cf8ca0840aaad6c7d001aa0140bb0b40dcac726229ee272, 0xe59390a821e8608be53fb258a426dfb6ca762fd09d574f7c5555cb8d7174b381)),
   ((0xa8e282ff0c9706907215ff98e8fd416615311de0446f1e062a73b0610d064e13, 0x7f97355b8db81c09abfb7f3c5b2515888b679a3e50dd6bd6cef7c73111f4cc0c),
    (0xf41bd2b0e0f49133747e831caf4c7a0c22d2b55f1cd4ca531115d81bb47754b0, 0x869485d726d4687bc57a9eb6e90e93a7bce3b523998d16c1297c996ab68c4fa3)),
   ((0x174a53b9c9a285872d39e56e6913cab15d59b1fa512508c022f382de8319497c, 0xccc9dc37abfc9c1657b4155f2c47f9e6646b3a1d8cb9854383da13ac079afa73),
    (0x67c452cbe71c61c58aaf68ccb1f6208d5646432b86774f8f600811796d5337c9, 0xd5f859dea125aee211dcc7cbb50b4fa3ef4f97677eb94f65b6a181df9b938c0a)),
   ((0x959396981943785c3d3e57edf5018cdbe039e730e4918b3d884fdff09475b7ba, 0x2e7e552888c331dd8ba0386a4b9cd6849c653f64c8709385e9b8abf87524f2fd),
    (0x56d097140cde8f0c0f1956cfa56bb0aab73507c8bc0399f8c0fd17de19e48e9b, 0xd62e1f31b40ca6ba71de90598a9fb9116c5f0007df0c33ebf50db688ef0ab90f))]

def chunk8 : List ((ℕ × ℕ) × (ℕ × ℕ)) :=
  [((0xd2a63a50ae401e56d645a1153b109a8fcca0a43d561fba2dbb51340c9d82b151, 0xe82d86fb6443fcb7565aee58b2948220a70f750af484ca52d4142174dcf89405),
    (0x31095045658b8c85ec0c4ddc7cbce691d060181dffa08855f3f367224c026225, 0x9a8cc5271c231ce7aeb6e73b9acbc16f4b331b014bd457b8799bad40547c210c)),
   ((0x64587e2335471eb890ee7896d7cfdc866bacbdbd3839317b3436f9b45617e073, 0xd99fcdd5bf6902e2ae96dd6447c299a185b90a39133aeab358299e5e9faf6589),
    (0xda34375ce38127dccc88a82355d763a72dd5d733d9bac2167c3e621bede529df, 0x13426579db1353d28095e1f2a007904d5c04a7252c621ce441157aefd2e28cf2)),
   ((0x8481bde0e4e4d885b3a546d3e549de042f0aa6cea250e7fd358d6c86dd45e458, 0x38ee7b8cba5404dd84a25bf39cecb2ca900a79c42b262e556d64b1b59779057e),
    (0xa80dd2749cb3c40daf91b91f6e8b0850027fae1796e416fb8a172c27d39e8789, 0x466161e1e9519ac5e1b03652cd1ce6cd1d7dc696aa59ab5c565d822faf427896)),
   ((0x13464a57a78102aa62b6979ae817f4637ffcfed3c4b1ce30bcd6303f6caf666b, 0x69be159004614580ef7e433453ccb0ca48f300a81d0942e13f495a907f6ecc27),
    (0xb3dee3f6cc08c0ba5b7ba3b85046964734f7dca1630e806ef84157e82992c765, 0xd523bf3c6b004cbd59db62b258395f63d487d6ce31799ee159ddf96ed9bae2e8)),
   ((0xbc4a9df5b713fe2e9aef430bcc1dc97a0cd9ccede2f28588cada3a0d2d83f366, 0xd3a81ca6e785c06383937adf4b798caa6e8a9fbfa547b16d758d666581f33c1),
    (0xdf9c2e2068e1e333f6acc6c3ba9928ebe761d4b027eaa1dedae1807929705021, 0x491f455b6e937f9135fe9060a8c5b6c160de5af9ba90aba4c060145ada1b032d)),
   ((0x8c28a97bf8298bc0d23d8c749452a32e694b65e30a9472a3954ab30fe5324caa, 0x40a30463a3305193378fedf31f7cc0eb7ae784f0451cb9459e71dc73cbef9482),
    (0xafdfa9346f7bcc74ec473e17f504865011c5251bbd6c0c70c25cb5614b004da8, 0xb16eec26d575cec6b8720f9404ccdddd78a5c4460a0cf286fd933f6a999a4a39)),
   ((0x8ea9666139527a8c1dd94ce4f071fd23c8b350c5a4bb33748c4ba111faccae0, 0x620efabbc8ee2782e24e7c0cfb95c5d735b783be9cf0f8e955af34a30e62b945),
    (0xc8e9e9c655d9d7e316a16971f7b7ed06fa5a2ddb56288169ea96c4396a53e01e, 0x3bf36e6e8cb2f52d8a7a155d1b3e4a17e06ae0cbb1dec52a09b5fbb29f0b8a1f))]

theorem chunk0_ok : rowsOk data0 chunk0 = true := by decide +kernel
theorem chunk1_ok : rowsOk (chunk0.getLastD data0) chunk1 = true := by decide +kernel
theorem chunk2_ok : rowsOk (chunk1.getLastD data0) chunk2 = true := by decide +kernel
theorem chunk3_ok : rowsOk (chunk2.getLastD data0) chunk3 = true := by decide +kernel
theorem chunk4_ok : rowsOk (chunk3.getLastD data0) chunk4 = true := by decide +kernel
theorem chunk5_ok : rowsOk (chunk4.getLastD data0) chunk5 = true := by decide +kernel
theorem chunk6_ok : rowsOk (chunk5.getLastD data0) chunk6 = true := by decide +kernel
theorem chunk7_ok : rowsOk (chunk6.getLastD data0) chunk7 = true := by decide +kernel
theorem chunk8_ok : rowsOk (chunk7.getLastD data0) chunk8 = true := by decide +kernel

theorem data0_ok : addG (numsX, numsY) = some data0.2 := by decide +kernel

/-- The offset of the last row. -/
theorem last_ok : (match addP ((chunk8.getLastD data0).2.1, p - (chunk8.getLastD data0).2.2) data0.2 with
    | none => false
    | some V => row (chunk8.getLastD data0).1 15 V) = true := by decide +kernel

def allRows : List ((ℕ × ℕ) × (ℕ × ℕ)) :=
  chunk0 ++ (chunk1 ++ (chunk2 ++ (chunk3 ++ (chunk4 ++ (chunk5 ++ (chunk6 ++ (chunk7 ++ chunk8)))))))

theorem rowsOk_trans {d : (ℕ × ℕ) × (ℕ × ℕ)} {l l' : List ((ℕ × ℕ) × (ℕ × ℕ))} (h : rowsOk d l = true)
    (h' : rowsOk (l.getLastD d) l' = true) : rowsOk d (l ++ l') = true := by
  rw [rowsOk_append, h, h', Bool.true_and]

theorem allRows_ok : rowsOk data0 allRows = true :=
  rowsOk_trans (show rowsOk _ chunk0 = true from chunk0_ok) (rowsOk_trans (show rowsOk _ chunk1 = true from chunk1_ok) (rowsOk_trans (show rowsOk _ chunk2 = true from chunk2_ok) (rowsOk_trans (show rowsOk _ chunk3 = true from chunk3_ok) (rowsOk_trans (show rowsOk _ chunk4 = true from chunk4_ok) (rowsOk_trans (show rowsOk _ chunk5 = true from chunk5_ok) (rowsOk_trans (show rowsOk _ chunk6 = true from chunk6_ok) (rowsOk_trans (show rowsOk _ chunk7 = true from chunk7_ok) (show rowsOk _ chunk8 = true from chunk8_ok))))))))

theorem allRows_last : allRows.getLastD data0 = chunk8.getLastD data0 := rfl

end Chain

theorem exists_nums : ∃ N : Pt, IsPt N (Chain.numsX : Fp) Chain.numsY := by
  apply isPt_of_eqn
  have : ((Chain.numsY ^ 2 : ℕ) : Fp) = ((Chain.numsX ^ 3 + 7 : ℕ) : Fp) := (ZMod.natCast_eq_natCast_iff' _ _ _).2 (by decide +kernel)
  push_cast at this; exact this

/-- The point of unknown logarithm. -/
noncomputable def nums : Pt := exists_nums.choose

theorem isPt_nums : IsPt nums (Chain.numsX : Fp) Chain.numsY := exists_nums.choose_spec

/-- The offset of the first row. -/
noncomputable def off : Pt := nums + G

theorem table_finite : (∀ j < 63, ∀ i ≤ 15, i • (16 ^ j • G) + 2 ^ j • off ≠ 0) ∧
    ∀ i ≤ 15, i • (16 ^ 63 • G) + (-(2 ^ 63 • off) + off) ≠ 0 := by
  have hp : ((p : ℕ) : Fp) = 0 := ZMod.natCast_self p
  have gG : Chain.Good Chain.data0.1 := ⟨by decide +kernel, by decide +kernel⟩
  obtain ⟨gU, iU⟩ := Chain.addG_spec hp Chain.data0_ok ⟨by decide +kernel, by decide +kernel⟩ isPt_nums isPt_G
  obtain ⟨h1, h2, h3, h4, h5⟩ := Chain.rows_spec Chain.allRows Chain.data0 G off Chain.allRows_ok gG gU isPt_G iU
  rw [Chain.allRows_last] at h2 h3 h4 h5
  have hlen : Chain.allRows.length = 63 := rfl
  rw [hlen] at h1 h4 h5
  have h := Chain.last_ok
  split at h
  · cases h
  rename_i V hV
  have h6 := h5.neg
  rw [← Chain.cast_sub_p hp h3.2] at h6
  obtain ⟨gV, iV⟩ := Chain.addP_spec hV ⟨h3.1, Nat.sub_le _ _⟩ gU h6 iU
  exact ⟨h1, Chain.row_spec h2 h4 15 V _ h gV iV⟩

end Verif
