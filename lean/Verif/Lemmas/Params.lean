import Verif.Model.Params
import Verif.Lemmas.MobID

/-!
Texts of uuids, and the table of names of parameters.
-/

namespace Avb
namespace Params

open Print (uuidText)

/-! ### texts of uuids -/

/-- The number written with these digits, or nothing. -/
def digit? (c : Char) : Option Nat :=
  if '0' ≤ c ∧ c ≤ '9' then some (c.toNat - 48) else if 'a' ≤ c ∧ c ≤ 'f' then some (c.toNat - 87) else none

/-- Bytes written as pairs of digits. -/
def pairs? : List Char → Option Bytes
  | [] => some []
  | [_] => none
  | a :: b :: cs => do
    let x ← digit? a
    let y ← digit? b
    let bs ← pairs? cs
    return UInt8.ofNat (x * 16 + y) :: bs

/-- The uuid with the given text. -/
def uuid? (t : Text) : Option UUID :=
  match pairs? (t.filter (· ≠ '-')) with
  | some bs => if h : bs.length = 16 then some ⟨bs, h⟩ else none
  | none => none

theorem digit_hexChar : ∀ n < 16, digit? (hexChar n) = some n := by decide

theorem pairs_hex : ∀ bs : Bytes, pairs? (bs.flatMap hexByte) = some bs
  | [] => rfl
  | b :: bs => by
    have h := b.toNat_lt
    simp only [List.flatMap_cons, hexByte, List.cons_append, List.nil_append, pairs?]
    rw [digit_hexChar _ (by omega), digit_hexChar _ (by omega), pairs_hex bs]
    simp only [bind, Option.bind, pure]
    congr 2
    rw [show b.toNat / 16 * 16 + b.toNat % 16 = b.toNat by omega]
    exact UInt8.ofNat_toNat

theorem filter_hex (bs : Bytes) : (bs.flatMap hexByte).filter (· ≠ '-') = bs.flatMap hexByte := by
  rw [List.filter_eq_self]
  intro c hc
  obtain ⟨b, -, hb⟩ := List.mem_flatMap.1 hc
  have h := b.toNat_lt
  simp only [hexByte, List.mem_cons, List.not_mem_nil, or_false] at hb
  rcases hb with rfl | rfl
  · simpa using (hexChar_plain _ (by omega)).2.2.2.2.2.2.1
  · simpa using (hexChar_plain _ (by omega)).2.2.2.2.2.2.1

theorem filter_uuidText (u : UUID) : (uuidText u).filter (· ≠ '-') = u.bytes.flatMap hexByte := by
  have key : ∀ l : Bytes, l.flatMap (fun b => fmtHex 2 b.toNat) = l.flatMap hexByte := by
    intro l
    simp only [fmtHex_byte]
  have hd : ['-'].filter (· ≠ '-') = [] := by decide
  unfold uuidText
  simp only [key, List.filter_append, filter_hex, hd, List.append_nil]
  have hlen := u.len
  rw [← List.flatMap_append, ← List.flatMap_append, ← List.flatMap_append, ← List.flatMap_append]
  congr 1
  generalize u.bytes = l at *
  match l, hlen with
  | [_, _, _, _, _, _, _, _, _, _, _, _, _, _, _, _], _ => rfl

theorem uuid_text (u : UUID) : uuid? (uuidText u) = some u := by
  unfold uuid?
  rw [filter_uuidText, pairs_hex]
  simp only
  rw [dif_pos u.len]

theorem uuidText_inj {u v : UUID} (h : uuidText u = uuidText v) : u = v := by
  have := uuid_text u
  rw [h, uuid_text] at this
  injection this with this
  exact this.symm

theorem uuidText_length (u : UUID) : (uuidText u).length = 36 := by
  unfold uuidText
  have hlen := u.len
  have two : ∀ l : Bytes, (l.flatMap fun b => fmtHex 2 b.toNat).length = 2 * l.length := by
    intro l
    induction l with
    | nil => rfl
    | cons b l ih => rw [List.flatMap_cons, List.length_append, ih, fmtHex_byte]; simp only [hexByte, List.length_cons, List.length_nil]; omega
  simp only [List.length_append, two, List.length_take, List.length_drop, hlen, List.length_cons, List.length_nil]
  omega

/-! ### the table -/

/-- The uuid with the given number. -/
def ofNumber (v : Nat) : UUID := ⟨packNat .big 16 v, packNat_length ..⟩

/-- The last `n` digits of a number before others. -/
def digits : Nat → Nat → List Char → List Char
  | 0, _, cs => cs
  | n + 1, v, cs => digits n (v / 16) (hexChar (v % 16) :: cs)

/-- The text of the uuid with the given number. -/
def keyText (v : Nat) : String :=
  String.ofList (digits 8 (v / 2 ^ 96) ('-' :: digits 4 (v / 2 ^ 80) ('-' :: digits 4 (v / 2 ^ 64) ('-' ::
    digits 4 (v / 2 ^ 48) ('-' :: digits 12 v [])))))

theorem digits_bytes (n v : Nat) (cs : List Char) : digits (2 * n) v cs = (packNat .big n v).flatMap hexByte ++ cs := by
  induction n generalizing v cs with
  | zero => rfl
  | succ n ih =>
    have e : 2 * (n + 1) = 2 * n + 1 + 1 := by omega
    rw [e, digits, digits, ih]
    have hb : hexByte (UInt8.ofNat (v % 256)) = [hexChar (v / 16 % 16), hexChar (v % 16)] := by
      unfold hexByte
      have : (UInt8.ofNat (v % 256)).toNat = v % 256 := by rw [UInt8.toNat_ofNat']; omega
      rw [this, show v % 256 / 16 = v / 16 % 16 by omega, show v % 256 % 16 = v % 16 by omega]
    simp only [packNat, leBytes, List.reverse_cons, List.flatMap_append, List.flatMap_cons, List.flatMap_nil, hb,
      List.append_nil, List.append_assoc, List.cons_append, List.nil_append, Nat.div_div_eq_div_mul]
    
theorem packNat_split (m n v : Nat) : packNat .big (n + m) v = packNat .big m (v / 256 ^ n) ++ packNat .big n v := by
  have key : ∀ n m v, leBytes (n + m) v = leBytes n v ++ leBytes m (v / 256 ^ n) := by
    intro n m
    induction n with
    | zero => intro v; simp [leBytes]
    | succ n ih =>
      intro v
      rw [show n + 1 + m = n + m + 1 by omega, leBytes, ih, leBytes, Nat.div_div_eq_div_mul, List.cons_append,
        show 256 * 256 ^ n = 256 ^ (n + 1) by rw [Nat.pow_succ, Nat.mul_comm]]
  simp only [packNat, key, List.reverse_append]

theorem keyText_eq (v : Nat) : (keyText v).toList = uuidText (ofNumber v) := by
  have key : ∀ l : Bytes, l.flatMap (fun b => fmtHex 2 b.toNat) = l.flatMap hexByte := by
    intro l
    simp only [fmtHex_byte]
  rw [keyText, String.toList_ofList]
  unfold uuidText
  simp only [key]
  have e : (ofNumber v).bytes = packNat .big 4 (v / 2 ^ 96) ++ (packNat .big 2 (v / 2 ^ 80) ++ (packNat .big 2 (v / 2 ^ 64) ++
      (packNat .big 2 (v / 2 ^ 48) ++ packNat .big 6 v))) := by
    show packNat .big 16 v = _
    rw [show (16 : Nat) = 12 + 4 from rfl, packNat_split, show (12 : Nat) = 10 + 2 from rfl, packNat_split,
      show (10 : Nat) = 8 + 2 from rfl, packNat_split, show (8 : Nat) = 6 + 2 from rfl, packNat_split]
    norm_num
  rw [e]
  have p4 := digits_bytes 4
  have p2 := digits_bytes 2
  have p6 := digits_bytes 6
  rw [show 2 * 4 = 8 from rfl] at p4
  rw [show 2 * 2 = 4 from rfl] at p2
  rw [show 2 * 6 = 12 from rfl] at p6
  rw [p4, p2, p2, p2, p6]
  have aux : ∀ a b c d e : Bytes, a.length = 4 → b.length = 2 → c.length = 2 → d.length = 2 → e.length = 6 →
      a.flatMap hexByte ++ '-' :: (b.flatMap hexByte ++ '-' :: (c.flatMap hexByte ++ '-' :: (d.flatMap hexByte ++
        '-' :: (e.flatMap hexByte ++ [])))) =
      (((a ++ (b ++ (c ++ (d ++ e)))).drop 0).take 4).flatMap hexByte ++ ['-'] ++
      (((a ++ (b ++ (c ++ (d ++ e)))).drop 4).take 2).flatMap hexByte ++ ['-'] ++
      (((a ++ (b ++ (c ++ (d ++ e)))).drop 6).take 2).flatMap hexByte ++ ['-'] ++
      (((a ++ (b ++ (c ++ (d ++ e)))).drop 8).take 2).flatMap hexByte ++ ['-'] ++
      (((a ++ (b ++ (c ++ (d ++ e)))).drop 10).take 6).flatMap hexByte := by
    intro a b c d e ha hb hc hd he
    match a, b, c, d, e, ha, hb, hc, hd, he with
    | [_, _, _, _], [_, _], [_, _], [_, _], [_, _, _, _, _, _], _, _, _, _, _ => rfl
  exact aux _ _ _ _ _ (packNat_length ..) (packNat_length ..) (packNat_length ..) (packNat_length ..) (packNat_length ..)

theorem keyText_inj {v w : Nat} (hv : v < 2 ^ 128) (hw : w < 2 ^ 128) (h : keyText v = keyText w) : v = w := by
  have h1 : ofNumber v = ofNumber w := uuidText_inj (by rw [← keyText_eq, ← keyText_eq, h])
  have h2 : packNat .big 16 v = packNat .big 16 w := congrArg UUID.bytes h1
  have h3 := congrArg (unpackNat .big) h2
  rw [unpackNat_packNat, unpackNat_packNat] at h3
  have e : (256 : Nat) ^ 16 = 2 ^ 128 := by norm_num
  rw [e, Nat.mod_eq_of_lt hv, Nat.mod_eq_of_lt hw] at h3
  exact h3

/-- The numbers of the keys. -/
def numbers0 : List Nat := [
  0x0082b85987f0426d85deff14e5c9080b, 0x0089d496bcbd4fe591dcd22f9c68214d, 0x008ab89695054dcc974f2bed88c40224,
  0x00e6693038044c78a69a9c2fbf994e01, 0x0103e0c3673a4d68a7f4780c2960e10c, 0x016edd14cc9e4bbd91f7670f2e5d2515,
  0x02435b330a97466a86dc0eaf9570b807, 0x024dec420502443fb01d2072afffe645, 0x031219149f254d4080f954b894b6a036,
  0x035a61cdab064844b644577a1242283e, 0x044afc62b8e94476a73268b10f08e1ca, 0x05811735f9e94ee98495ba975c0aed8e,
  0x06bcbf2979a942ecbdd6ba81e2f907d8, 0x071f3b3a4ddd46a8a39f1ab87fcc4437, 0x087d9dfedfda4725bb3b23373636e249,
  0x09997779960e11d3a04e006094eb75cb, 0x0aa3953232554e74a99195fe17600e07, 0x0adba4000bb643f3a435adb44045bab3,
  0x0ca9ffed6f984b679b7787fb8ebb96dd, 0x0d2cee668d124c3f96873606e33bfc91, 0x0dfe4801173346afab2f24a17171ad60,
  0x0e741bd569ab40b8879b2b3d927077e6, 0x0eb6fae7091f412d9e5fc6b2c53e5af6, 0x0ec6f41b1a7d33d3959ca3c94a62ecdf,
  0x0ee907848b394860a284436c6c554165, 0x101cfd8fdfce11d39ff30004ac969f50, 0x105874f7208d4b649b37f5422042bdfe,
  0x1083ad108be741198694ac6e5a850d9f, 0x10aaa4496d304524af8b58a5755c560f, 0x1116495de1c14d25a9bc12769cd55120,
  0x1157f37efcc74c9b956031bc536da216, 0x11a216dc1b5c42ac8cdf1e9595cb6978, 0x12dc68e8f876415c9ff23c58fd581019,
  0x139a5ebf3e8f3b04bf2063541784f9c8, 0x139ee6627f3a48219ca106d0d85870e1, 0x13b6b8be73ea4f4d9cf849b78b8c6494,
  0x13f475bb5d0e478fb8075bbfc0af4b2c, 0x141bb38de797457ba46759759ad63590, 0x146bcb8ef3e641ff901bfef4eff2cc54,
  0x1497c7daf6113f44ac458a27dce6562b, 0x14f8dd14eef64a57bd7dab461d46c413, 0x15880ea3efde4e968eab915c953f5825,
  0x15a98ac2784c3db1b047e0eb2ed20185, 0x162a09b585cf48c4b6be4406bb52dc87, 0x1736065f052940dd8a75a13e5c5117b0,
  0x1744888558c43410a491499f97679239, 0x17fd9b2c26b44ad3a8fe5eb6507531fa, 0x180dd040f14443278ed4917c56cc0ef8,
  0x18389ab39d5d4ae4a1d707ef961b77a4]

set_option maxRecDepth 100000 in
theorem keys0 : table0.map Prod.fst = numbers0.map keyText := by eq_refl

/-- The numbers of the keys. -/
def numbers1 : List Nat := [
  0x18b82c6a743f4bcbba72885e99358978, 0x19443b8e3fb94fa3877512cf342b51fb, 0x1ad61f93ba6e47d9863305f83ae4bd19,
  0x1b8006a3e3c611d39ff30004ac969f50, 0x1c5a02d5e5034ca68617d7914bb8ac03, 0x1cba9fff62fa44dd89aae76fe4378c0f,
  0x1cc50d0c44bf4460885017eed33bf5cf, 0x1ec7bbcffd1b442f89d1c752ab1a02eb, 0x1f99097e13b84ae898fdc3512850edff,
  0x1f9e4b9b3d3645f19834c84c4a6114e9, 0x1fb966ffb32740a38ce70966517380d8, 0x1fdd2907e48c11d3a078006094eb75cb,
  0x2134ad764b77472fa7188169c05f3aa6, 0x213ad6a03e8742a0a54736236bd3b0ce, 0x21739be5026e4316a04f2b30b8ab0dfe,
  0x21b4bd9517b64f0bb9be5ed1b5b12c12, 0x223698ab4f2047a1956cda6d96472a35, 0x2283451dc8394b74ae0b4cfb7f5b2aaf,
  0x22c4a1d530384a978e03d0fa7a64cad3, 0x23101d3f2a3b452f8928c6b18d2c585f, 0x239ccfd1ce4940c3ac29ec7f1d63173f,
  0x23b91f70a42b461a9e514a934acc1298, 0x248ce8bb780e4e9cb14581b2a4484f3f, 0x26a83cfa1e4c4287ac87914705c076bf,
  0x26c191907c0a4315857c4cc1f7273f52, 0x26f0b321f9ef43eeb07307a75fee912b, 0x2726936af80c4932923cfcf3ec572065,
  0x27a3aa5f82da49378cd9225e06a3e87d, 0x27ce7bec07f64ef0a47caf9e8437bbef, 0x283f92b7d0df46419768bb9bfe8c653e,
  0x2848905f773049a9a16f34ce3cbe3721, 0x28abc67df9cf32df838cc6740d0b8da8, 0x28cac1c06f96481191fd8b4810495016,
  0x290b1aa6faa53c57a32895e66d77e0fd, 0x296caabb17024d11a3741e32cd6c340d, 0x299f11d220bf45f3a8f8c50b37b3e452,
  0x2a80d089f54140a09ef5bcd201e550ce, 0x2a8c1d97990a475f9a1673bddf4f07a9, 0x2aca02a9f0174b09b68f7af6a91e4944,
  0x2ba2f85a61d7478cb1aee5c31f1d24bf, 0x2bac71cd34d14ceb94b4655e40ce9071, 0x2c779fe1c2c9434d9a4000ef4c874da5,
  0x2ca723ee61a54f1ba794e23bc658f2a3, 0x2dbd24c454944c1ea9d71e3ac4c07d03, 0x2e393032f6664661860ad48db0c5a471,
  0x2ed24193e2d5404e8bc03054516334ca, 0x2edae95f56dc43a89333e3b6e4c84487, 0x300865f099e0470689497078ddb8bdf8,
  0x305a91eedb404084832c80d2a9c3d92e]

set_option maxRecDepth 100000 in
theorem keys1 : table1.map Prod.fst = numbers1.map keyText := by eq_refl

/-- The numbers of the keys. -/
def numbers2 : List Nat := [
  0x30625eb0361d4b1db54554b91954e73f, 0x312db8eda40f42f4b57bdf89f720a324, 0x316640b7dfaa4739a2d3ef64b49ade40,
  0x3180a3f29517435aacf00e97181cd1ac, 0x3245b687e723470c93f58ace1b8158c2, 0x327c3b78a48640489a40112cb8d6c092,
  0x338a2f41ee1e11d39ff50004ac969f50, 0x33950f517b5e45cd9d62bd392abb6194, 0x34a02f3cd0c24b6cab04d505f5d4e9b5,
  0x362ff27f507e4a22bc2c154b4d93c45b, 0x3657f1bafa88459ca65ecf20ee6a1a09, 0x3658d3256f0f44018abeb83e361c59c7,
  0x366746d2193443ce966f217e2c4130a9, 0x367b1c2808f942828cba6e03949dd964, 0x3718d79ea09043cf9881f0993c04640f,
  0x37930c95628449a0afcff6a45bbbb815, 0x37aec4b8d57c4c3f9ff0827ac37a05de, 0x385ce8dad2ff49f9981fbe8d10eb6f93,
  0x386e92f8978e11d380e1006008143e6f, 0x3906d29e4f5d4efe897964fbcf67ce15, 0x39f3a3bb9a6646c59764f6d041ea6135,
  0x3af5331cfb934b15b2434dbcde225e29, 0x3b3b5d0619844f068c19aa62a1e7616d, 0x3defdebdff5a457d8d88aaddad19cfeb,
  0x3e2b2e4b4047341c9ee7a085e4fffada, 0x3f13b13fa883497fb5c188f247caaf11, 0x3f93cea8c8f54a278fb690ee865c7cd5,
  0x3fea93fb98bc4258b4580d9256079739, 0x400281bb4bef481b934731e4e539c3e8, 0x40674b25ecee4f00b035fa3582568756,
  0x415abfe30b9648ecb1d54166137ce196, 0x4171f12239c44d96bdeec10decdaa640, 0x42401321789e477aa43cdb24333a5990,
  0x4253f368819542422b1732259c00375e, 0x43907fd5080f4b68848ab5b1a3be22b9, 0x44560d49c41b3504a820f35fd5abea5c,
  0x445f9f4f5d5b420ea7671c1c7ac13da7, 0x448f63a651064372a710a8f60f3caa30, 0x45312ed2a1b811d3a05a006094eb75cb,
  0x4578519e3ec04e6baeaefd0d862d112f, 0x460386b233ee4d5b9cffe5b712a3f2b0, 0x46d247eeb7fc4c258ae6e54ccfd89c8f,
  0x470736522744422c826a6de4f8364360, 0x47c00f7dfb5511d39ff70004ac969f50, 0x47c00f7efb5511d39ff70004ac969f50,
  0x484f9a96686d440e9360990be1936e1d, 0x4855ebd221bb4842bc39aa153dec3400, 0x4856d42723ef4437bed2e829977f1561,
  0x48862d37b0d04f3ca0639ffe4aab01d8]

set_option maxRecDepth 100000 in
theorem keys2 : table2.map Prod.fst = numbers2.map keyText := by eq_refl

/-- The numbers of the keys. -/
def numbers3 : List Nat := [
  0x48eec48148224530a7318b818ecb7d25, 0x49764c0457794c7de6f99e1c38c2ecac, 0x4a5d4d48b6904e06a989b4b886a5f9ac,
  0x4aeb74b1a1b5418fb9f6643374574b1e, 0x4b0a03c1e5ac451cb1f45bc02105e48f, 0x4b2e5f6526884e659dc6d0bec9d7357e,
  0x4b376234ee7c4cefb0bbf03e30ac3f08, 0x4b4db99bd39b4d1fb5b3194ac59099f8, 0x4b6ab71e34a34c2485306693e2f8a2eb,
  0x4b93e432d9cf4bc7ab42f3d9abed704c, 0x4c14901900624ee3b1cd7e174f6e97d8, 0x4d55c481a36e4dffb71c7c2eb5cdc4e2,
  0x4d7d3e39223e471fa1b7ddfc575d7117, 0x4db21e7041a24fa987253c40f2d7e991, 0x4e537fd42af84ca5a7a07482c38d74a2,
  0x4ea2a9ca7abb4e7293652e3b9f4bd991, 0x4eacaaf347d243b68b1867e62113d952, 0x4ed7ed6ea42e300f83e20d4fe78fc076,
  0x4fcfb16cc6ad4d0e82c9efb72c1f701e, 0x502896907bba427380f910a0fb2ba6b2, 0x506b066bdab64906b8641fca8ac78f59,
  0x508db2f804c44e8396dbdb1a1204c201, 0x5093fb0141694dcca9680f17c6986365, 0x50fe9f55db1148c9b46e39ff7348f65e,
  0x51a65b031c1b4cfb93ebb65af4e883bf, 0x52141c728b984d85a78a74cca6eb57a6, 0x52eb847fb89144729b99deef2720bb9d,
  0x530d27f784bc42abab07ee8cbc841d11, 0x532225eb454c41ccaf0bd0ce21878f40, 0x535e2aa61ca743579d93a80c571e1a98,
  0x538172d0dd774061b25da0be5f1930af, 0x53be6e00de634ff5a629ea5704490eed, 0x542d8b06c6464527a67c1a5223f0ca0b,
  0x54b75f44200e477f85795130eb4a7f58, 0x54d16c08d1ff410e805ea4421d983597, 0x54f14f63cd3e4a76a497a41b5e306656,
  0x5529e19259a249a1a00924163879cacf, 0x553ea4c84cab4870b99c9438b5da82c0, 0x55b23bbae33944a99ea187616a6945a2,
  0x55d2feb88c384979bac85e76ea62cc3b, 0x55ef92a379884f3b95b61f88964bdb34, 0x5815de42c84e3866867fe5564a77fe64,
  0x58c351fde77c4695bfaea13ed6e424d9, 0x58daae36552349cbb4f226b1bb6720c8, 0x58daee8c469b3e58895387e90363f4d4,
  0x59a31133bd7249088307d87a1dfe0eea, 0x59e6f7c6abbd45f497d271661827638b, 0x5a1cebc5f7e54a1990d4952a44e4551f,
  0x5b22ff71c51b11d3a069006094eb75cb]

set_option maxRecDepth 100000 in
theorem keys3 : table3.map Prod.fst = numbers3.map keyText := by eq_refl

/-- The numbers of the keys. -/
def numbers4 : List Nat := [
  0x5c166fa3461f4cebb3a2a1d2ffe6beb7, 0x5c477d5d89cf4cbfb59a881b110364c1, 0x5cfa5403c14445b6b0c3bbd89426b604,
  0x5d8fc3a653054912a0a9c44c134cd4fa, 0x5e1a4611ba2643a9a22334eb095df41e, 0x5f2127adc7a711d3a069006094eb75cb,
  0x5ff50344344c4e8e90bca56558d907bc, 0x600981afa9f936b5b3569c4207292685, 0x628416aed67b42c1a22b07644ef578c9,
  0x62e88677030c4a96899ad6402faf3190, 0x63e1560b41e144d790e5ac2115a3a004, 0x63e2294b8cf24503b974678e88e3d0a2,
  0x65156de8e7e8442bb4295abeb331e967, 0x6522e8592b704005adee27d0785c11d9, 0x65858bdc8b8b421d954e4d1060ba94ab,
  0x659ebd59f26742fb8f234f07a6d3ef61, 0x664682c9bca145b4809e7fe4409f79d9, 0x666c91ff389a4a2086e6c7ae9d761b60,
  0x67a853e80e6a41a0ac0db49c4cff3100, 0x680f52a5125f4bfc8c113727770be96c, 0x685a2d0287bb4068ac5b79c9ef4bb025,
  0x69fdf04d611d4a34923f021f7278f2c0, 0x6a2772b20db34f7faeadf58a1e27c7db, 0x6aac2758bd1340528ec6b620a6d0ce6b,
  0x6bc872e8961f4289ec568dea598e7c0c, 0x6bd7fbe46c964ab48ac8f436d08fe7bb, 0x6ceb01c19a9b471db469551286b9e0b5,
  0x6d2d5d5422ec47138661dd2bab48f558, 0x6d84031afa06446d9e2e8773f12f49e1, 0x6e11f54198ff40f88ea8d52a9d211833,
  0x6ebd16976bad43d19fcf37418d3e51ff, 0x6f73e51878bf4bc99ff35c924c4628e1, 0x6faee46615a043fcbc5b917e8ee2ef86,
  0x7022f0f769e04f659e71808f3ffbb3a0, 0x713a9f6c6dcf411485afc64dfb1b3320, 0x72559a8024d711d38a500050040ef7d2,
  0x72837b7fb5ca44799ef86dfc10c32ebd, 0x732f3ce28cff41feae5a0ec86338a933, 0x741340f126d040e2be9bc293a6f8a830,
  0x747a57c71bed4506969dac936ee9dfcf, 0x759b6f7873a84cd78b118605860b6b9a, 0x759f6cfc29ae41b0b88b3f4193457e03,
  0x760264def95245259d3fa4397080cb38, 0x76401b7fee1e11d39ff50004ac969f50, 0x76ba6d2aad3846e9b7ea7314f10b67a4,
  0x776133540d244cdd8f65edc9d176d662, 0x77a14c3df74b41f6bd8bd7bbc18b8a39, 0x7900ba08e97e47738bc8b7c0412fa3ab,
  0x79367e91ed694881a085b0b448db0f42]

set_option maxRecDepth 100000 in
theorem keys4 : table4.map Prod.fst = numbers4.map keyText := by eq_refl

/-- The numbers of the keys. -/
def numbers5 : List Nat := [
  0x7a4e47fe5f8b4d70a9d0ed59e106e2c8, 0x7c254c09ee1e11d39ff50004ac969f50, 0x7c51fa4ada82414bb3d448d1cc9a314f,
  0x7db249d7367047bbb02731b0a477c966, 0x7e1228ad066f42f590eada79e4dd4529, 0x7e7c180fc5b74aad976405b2ca5072af,
  0x7e85279dafab4b0aa2866c4cf81eb53a, 0x7ea6c8d9501f48338c0f3264d3f8263b, 0x7fa2b1601d1d4681a6f2e8109fce0a01,
  0x80332d81ca774730bea8a8c60e9b7feb, 0x80bcd031eefa11d39ff50004ac969f50, 0x812c723d418c48889a5e5015600c6e9d,
  0x8134fc483bd6490495207a6360cc7127, 0x817a8931496546f8867fef52de9fe2da, 0x81ad80ddee1e11d39ff50004ac969f50,
  0x81ae2ba37ddc41bfbb21512d538d1f1f, 0x81bd6e957c674bbba63a6805f0a1b15e, 0x83d3a4fcb24647a491fc2b4e470fcaed,
  0x83fd6e55201c48ca95e65599b7010a61, 0x84159810a5524a0f854e4b53dd8a7630, 0x84605907d09147c69d8c84f9704ced62,
  0x8519d4b22a8b4942a41137429808e3cd, 0x858eef3f1666302680876db89d1145a5, 0x85ffc3fdee1e11d39ff50004ac969f50,
  0x86323fe40eb74406993ccc6ffd3043c8, 0x869f2e7164d8447abfac84e3f73c1a7e, 0x86c54bfe310d4a14afed28b3e85d998c,
  0x87a94f5e469a48d581b1c3f7b137c067, 0x8876e0731db046b56534f1fab5bacfca, 0x8a3ba356d2754e2596ca2042c4482e65,
  0x8adb91e2bdfc421c9809669245960754, 0x8af7a5dc367b4919afc75ca00a5bd558, 0x8aff0d083cf8417ea06bbf989126711f,
  0x8b7593395fe5451ca30e22b176d8920a, 0x8b8b2819ca954532bb435a052206879c, 0x8ba0916a7c0b41e4b2dac817048cbf5d,
  0x8bc427356bab11d380cf006008143e6f, 0x8bc427366bab11d380cf006008143e6f, 0x8bc427376bab11d380cf006008143e6f,
  0x8bc427386bab11d380cf006008143e6f, 0x8bc427396bab11d380cf006008143e6f, 0x8bc4273a6bab11d380cf006008143e6f,
  0x8bc4273b6bab11d380cf006008143e6f, 0x8bc4273c6bab11d380cf006008143e6f, 0x8bc4273d6bab11d380cf006008143e6f,
  0x8bc4273e6bab11d380cf006008143e6f, 0x8be56740338044a7a2c8dfe58ad5b9e2, 0x8c28315ad4bd482f957085e32de20b48,
  0x8cb647ca80f64b7fa20572eef277d20d]

set_option maxRecDepth 100000 in
theorem keys5 : table5.map Prod.fst = numbers5.map keyText := by eq_refl

/-- The numbers of the keys. -/
def numbers6 : List Nat := [
  0x8cc4ae717aaf4be6aecea8bb9d3d5ee8, 0x8d568125847e11d5935a50f857c10000, 0x8d568126847e11d5935a50f857c10000,
  0x8d568129847e11d5935a50f857c10000, 0x8d56812a847e11d5935a50f857c10000, 0x8d56812b847e11d5935a50f857c10000,
  0x8d56812e847e11d5935a50f857c10000, 0x8d56812f847e11d5935a50f857c10000, 0x8d568130847e11d5935a50f857c10000,
  0x8d568131847e11d5935a50f857c10000, 0x8d568133847e11d5935a50f857c10000, 0x8d568134847e11d5935a50f857c10000,
  0x8d568135847e11d5935a50f857c10000, 0x8d568136847e11d5935a50f857c10000, 0x8d568137847e11d5935a50f857c10000,
  0x8d568138847e11d5935a50f857c10000, 0x8d568139847e11d5935a50f857c10000, 0x8d56813a847e11d5935a50f857c10000,
  0x8d56813d847e11d5935a50f857c10000, 0x8d56813e847e11d5935a50f857c10000, 0x8d56813f847e11d5935a50f857c10000,
  0x8d568140847e11d5935a50f857c10000, 0x8d568142847e11d5935a50f857c10000, 0x8d568143847e11d5935a50f857c10000,
  0x8d568144847e11d5935a50f857c10000, 0x8d568145847e11d5935a50f857c10000, 0x8d568146847e11d5935a50f857c10000,
  0x8d568147847e11d5935a50f857c10000, 0x8d568148847e11d5935a50f857c10000, 0x8d568149847e11d5935a50f857c10000,
  0x8d56814d847e11d5935a50f857c10000, 0x8d568153847e11d5935a50f857c10000, 0x8d568170847e11d5935a50f857c10000,
  0x8d568171847e11d5935a50f857c10000, 0x8d568184847e11d5935a50f857c10000, 0x8d568185847e11d5935a50f857c10000,
  0x8d568186847e11d5935a50f857c10000, 0x8d568187847e11d5935a50f857c10000, 0x8d568188847e11d5935a50f857c10000,
  0x8d568189847e11d5935a50f857c10000, 0x8d56818a847e11d5935a50f857c10000, 0x8d56818b847e11d5935a50f857c10000,
  0x8d56818d847e11d5935a50f857c10000, 0x8d56818e847e11d5935a50f857c10000, 0x8d56818f847e11d5935a50f857c10000,
  0x8d568190847e11d5935a50f857c10000, 0x8d568191847e11d5935a50f857c10000, 0x8d568192847e11d5935a50f857c10000,
  0x8d568193847e11d5935a50f857c10000]

set_option maxRecDepth 100000 in
theorem keys6 : table6.map Prod.fst = numbers6.map keyText := by eq_refl

/-- The numbers of the keys. -/
def numbers7 : List Nat := [
  0x8d568194847e11d5935a50f857c10000, 0x8d568196847e11d5935a50f857c10000, 0x8d568197847e11d5935a50f857c10000,
  0x8d56819b847e11d5935a50f857c10000, 0x8d56819c847e11d5935a50f857c10000, 0x8d56819d847e11d5935a50f857c10000,
  0x8d56819e847e11d5935a50f857c10000, 0x8d56819f847e11d5935a50f857c10000, 0x8d5681a0847e11d5935a50f857c10000,
  0x8d5681a1847e11d5935a50f857c10000, 0x8d5681a2847e11d5935a50f857c10000, 0x8d5681a4847e11d5935a50f857c10000,
  0x8d5681a6847e11d5935a50f857c10000, 0x8d5681a7847e11d5935a50f857c10000, 0x8d5681a9847e11d5935a50f857c10000,
  0x8d5681aa847e11d5935a50f857c10000, 0x8d5681ab847e11d5935a50f857c10000, 0x8d5681ac847e11d5935a50f857c10000,
  0x8d5681b1847e11d5935a50f857c10000, 0x8d5681b2847e11d5935a50f857c10000, 0x8d5681b3847e11d5935a50f857c10000,
  0x8d5681b4847e11d5935a50f857c10000, 0x8d5681b6847e11d5935a50f857c10000, 0x8d5681b7847e11d5935a50f857c10000,
  0x8d5681b8847e11d5935a50f857c10000, 0x8d5681b9847e11d5935a50f857c10000, 0x8d5681ba847e11d5935a50f857c10000,
  0x8d5681bb847e11d5935a50f857c10000, 0x8d5681bd847e11d5935a50f857c10000, 0x8d5681be847e11d5935a50f857c10000,
  0x8d5681bf847e11d5935a50f857c10000, 0x8d5681c1847e11d5935a50f857c10000, 0x8d5681c2847e11d5935a50f857c10000,
  0x8d5681c3847e11d5935a50f857c10000, 0x8d5681c4847e11d5935a50f857c10000, 0x8d5681c5847e11d5935a50f857c10000,
  0x8d5681c6847e11d5935a50f857c10000, 0x8d5681c7847e11d5935a50f857c10000, 0x8d5681c8847e11d5935a50f857c10000,
  0x8d5681c9847e11d5935a50f857c10000, 0x8d5681ca847e11d5935a50f857c10000, 0x8d5681cb847e11d5935a50f857c10000,
  0x8d5681cc847e11d5935a50f857c10000, 0x8d5681cd847e11d5935a50f857c10000, 0x8d5681ce847e11d5935a50f857c10000,
  0x8d5681cf847e11d5935a50f857c10000, 0x8d5681d0847e11d5935a50f857c10000, 0x8d5681d1847e11d5935a50f857c10000,
  0x8d5681d2847e11d5935a50f857c10000]

set_option maxRecDepth 100000 in
theorem keys7 : table7.map Prod.fst = numbers7.map keyText := by eq_refl

/-- The numbers of the keys. -/
def numbers8 : List Nat := [
  0x8d5681d3847e11d5935a50f857c10000, 0x8d5681d4847e11d5935a50f857c10000, 0x8d5681d5847e11d5935a50f857c10000,
  0x8d5681d6847e11d5935a50f857c10000, 0x8d5681d7847e11d5935a50f857c10000, 0x8d5681d8847e11d5935a50f857c10000,
  0x8d5681d9847e11d5935a50f857c10000, 0x8d5681da847e11d5935a50f857c10000, 0x8d5681db847e11d5935a50f857c10000,
  0x8d5681dc847e11d5935a50f857c10000, 0x8d5681dd847e11d5935a50f857c10000, 0x8d5681de847e11d5935a50f857c10000,
  0x8d5681df847e11d5935a50f857c10000, 0x8d5681e0847e11d5935a50f857c10000, 0x8d5681e1847e11d5935a50f857c10000,
  0x8d5681e3847e11d5935a50f857c10000, 0x8d5681e4847e11d5935a50f857c10000, 0x8d5681e6847e11d5935a50f857c10000,
  0x8d5681e8847e11d5935a50f857c10000, 0x8d5681ea847e11d5935a50f857c10000, 0x8d5681ec847e11d5935a50f857c10000,
  0x8d5681ed847e11d5935a50f857c10000, 0x8d5681ee847e11d5935a50f857c10000, 0x8d5681f0847e11d5935a50f857c10000,
  0x8d5681f1847e11d5935a50f857c10000, 0x8d5681f2847e11d5935a50f857c10000, 0x8d5681f3847e11d5935a50f857c10000,
  0x8d5681f5847e11d5935a50f857c10000, 0x8d5681f6847e11d5935a50f857c10000, 0x8d5681f7847e11d5935a50f857c10000,
  0x8d5681f8847e11d5935a50f857c10000, 0x8d5681f9847e11d5935a50f857c10000, 0x8d5681fa847e11d5935a50f857c10000,
  0x8d5681fb847e11d5935a50f857c10000, 0x8d5681fc847e11d5935a50f857c10000, 0x8d5681fe847e11d5935a50f857c10000,
  0x8d5681ff847e11d5935a50f857c10000, 0x8d568200847e11d5935a50f857c10000, 0x8d568201847e11d5935a50f857c10000,
  0x8d568202847e11d5935a50f857c10000, 0x8d568203847e11d5935a50f857c10000, 0x8d568206847e11d5935a50f857c10000,
  0x8d568207847e11d5935a50f857c10000, 0x8d568208847e11d5935a50f857c10000, 0x8d568209847e11d5935a50f857c10000,
  0x8d56820a847e11d5935a50f857c10000, 0x8d56820b847e11d5935a50f857c10000, 0x8d56820c847e11d5935a50f857c10000,
  0x8d56820d847e11d5935a50f857c10000]

set_option maxRecDepth 100000 in
theorem keys8 : table8.map Prod.fst = numbers8.map keyText := by eq_refl

/-- The numbers of the keys. -/
def numbers9 : List Nat := [
  0x8d56820e847e11d5935a50f857c10000, 0x8d56820f847e11d5935a50f857c10000, 0x8d568210847e11d5935a50f857c10000,
  0x8d568211847e11d5935a50f857c10000, 0x8d568212847e11d5935a50f857c10000, 0x8d568215847e11d5935a50f857c10000,
  0x8d568216847e11d5935a50f857c10000, 0x8d568217847e11d5935a50f857c10000, 0x8d568218847e11d5935a50f857c10000,
  0x8d56821a847e11d5935a50f857c10000, 0x8d56821c847e11d5935a50f857c10000, 0x8d56821d847e11d5935a50f857c10000,
  0x8d56821e847e11d5935a50f857c10000, 0x8d56821f847e11d5935a50f857c10000, 0x8d568220847e11d5935a50f857c10000,
  0x8d568221847e11d5935a50f857c10000, 0x8d568222847e11d5935a50f857c10000, 0x8d568223847e11d5935a50f857c10000,
  0x8d568224847e11d5935a50f857c10000, 0x8d568225847e11d5935a50f857c10000, 0x8d568226847e11d5935a50f857c10000,
  0x8d568227847e11d5935a50f857c10000, 0x8d568228847e11d5935a50f857c10000, 0x8d568229847e11d5935a50f857c10000,
  0x8d56822a847e11d5935a50f857c10000, 0x8d56822d847e11d5935a50f857c10000, 0x8d56822e847e11d5935a50f857c10000,
  0x8d56822f847e11d5935a50f857c10000, 0x8d568230847e11d5935a50f857c10000, 0x8d568231847e11d5935a50f857c10000,
  0x8d568232847e11d5935a50f857c10000, 0x8d568233847e11d5935a50f857c10000, 0x8d568234847e11d5935a50f857c10000,
  0x8d568235847e11d5935a50f857c10000, 0x8d568279847e11d5935a50f857c10000, 0x8d56827a847e11d5935a50f857c10000,
  0x8d56827b847e11d5935a50f857c10000, 0x8d56827c847e11d5935a50f857c10000, 0x8d56827d847e11d5935a50f857c10000,
  0x8d568283847e11d5935a50f857c10000, 0x8d568288847e11d5935a50f857c10000, 0x8d568289847e11d5935a50f857c10000,
  0x8d56828a847e11d5935a50f857c10000, 0x8d56828b847e11d5935a50f857c10000, 0x8d56828e847e11d5935a50f857c10000,
  0x8d56828f847e11d5935a50f857c10000, 0x8d568290847e11d5935a50f857c10000, 0x8d568291847e11d5935a50f857c10000,
  0x8d568292847e11d5935a50f857c10000]

set_option maxRecDepth 100000 in
theorem keys9 : table9.map Prod.fst = numbers9.map keyText := by eq_refl

/-- The numbers of the keys. -/
def numbers10 : List Nat := [
  0x8d568293847e11d5935a50f857c10000, 0x8d568294847e11d5935a50f857c10000, 0x8d568295847e11d5935a50f857c10000,
  0x8d568296847e11d5935a50f857c10000, 0x8d568297847e11d5935a50f857c10000, 0x8d568298847e11d5935a50f857c10000,
  0x8d568299847e11d5935a50f857c10000, 0x8d56829a847e11d5935a50f857c10000, 0x8d56829b847e11d5935a50f857c10000,
  0x8d56829c847e11d5935a50f857c10000, 0x8d56829d847e11d5935a50f857c10000, 0x8d56829e847e11d5935a50f857c10000,
  0x8d56829f847e11d5935a50f857c10000, 0x8d5682a0847e11d5935a50f857c10000, 0x8d56830e847e11d5935a50f857c10000,
  0x8d56830f847e11d5935a50f857c10000, 0x8d568310847e11d5935a50f857c10000, 0x8d568311847e11d5935a50f857c10000,
  0x8d568312847e11d5935a50f857c10000, 0x8d568313847e11d5935a50f857c10000, 0x8d9cb6b17be94ab79e0ef0dfa4512eb7,
  0x8dde183968624874a1e94fbd1164f22a, 0x8eb7293703e44fbdafe81c5396fbfc33, 0x8f32fa403b044c24b7e6878ce2c35ac5,
  0x8f9a37202fad452dbe5259c444f250d9, 0x8fe5c48df2ad4983932ffe9af48ffeb9, 0x9048938882974ec493249e324db5dd7e,
  0x922d458d8f2211d4a03c0004ac969f50, 0x9282b1aa48304c548fe3e4297642eab2, 0x92940b430e5344f8a1e5e4307229c6b5,
  0x929aa21b2657319a8166ae7ce567732c, 0x92e60b236b354a1698bd576762c36558, 0x93001c0a0ad944e4f95ab928ba3d319d,
  0x93994bd6a81d11d3a05b006094eb75cb, 0x93bb18f69f014e1fb1f52ba2c723f72d, 0x93fa3338d3cd4494ad66938d3160e363,
  0x94580fb4a0ad4d10aba57d4fea016af1, 0x94f05a26bdaf4249b88898df7067f9f5, 0x983246d5c0ab49d58bc373e9ebebe53a,
  0x98588b9c908d43279581f10807b9684f, 0x9900d01eed984ed081545c570966978a, 0x99a331fb205f4f13a372192393adc7ce,
  0x99cce31dcb14401493f12fb2f9a22143, 0x99e3106a251c471382f9dbec599fecf4, 0x9a1cf94b40a44cd1abaf6cbbc3b6d8fb,
  0x9bf5edfddecb4ac2ba1071f625c58c13, 0x9c894ba0227711d38a4c0050040ef7d2, 0x9ccb49d2dc634ca83050fb49215a36b9,
  0x9da5a7644c773f4894baf20ae4d5bfcd]

set_option maxRecDepth 100000 in
theorem keys10 : table10.map Prod.fst = numbers10.map keyText := by eq_refl

/-- The numbers of the keys. -/
def numbers11 : List Nat := [
  0x9e10e196a17b4863948867521447bff7, 0x9eb602c1053e4e179c3578b9b373a83c, 0x9f37d0dcbbe64cfa9d651a242a28a97a,
  0x9fdd75c553f446ef95eae556cf72027d, 0xa0358d997933434ba42c9d66c888f70d, 0xa293cc8dbab741efbac62f361749646a,
  0xa2c7b8848ad84bd49c66f8493c49ee04, 0xa2e7420385274f5aaa164bac4607510f, 0xa4fa1dc373864fa0ffcaab9cdd995ac6,
  0xa54cdd1bf78245469ad175f0d3b74dd9, 0xa5bc8a63479b4d85b92da5061c81d62b, 0xa5c611279e9844fc9cd658b0fc98dc87,
  0xa60cb3089913401b896d5c5430dc2daf, 0xa647071821f640558699e700c0c0b61a, 0xa675051412f940309595d06fc8139e12,
  0xa6de37cc0c3f4ba186f117db7a153cb2, 0xa7c17fccd77e4892a653688bd618aa41, 0xa7fb55bb86a24ed98594e8e432eb9c6f,
  0xa86c9c258bb641b5a2a64e4090aa9cf8, 0xa89678167093447597cf93e8a1b1b72d, 0xa91ade368f7a4633995ea6aa96c09218,
  0xa94b8019468c40adb4097e6766fbd5dd, 0xa95da51bd9f94af184a5f121b3b00075, 0xaad2ee3ee55543c2bcc4d2d11b245553,
  0xab066a7bcccd4c7298e76ab0be7de7bb, 0xab075209c71c3440b878eb65ab5c1767, 0xac11ea119f3f4d7ab4330759d66623b3,
  0xad0cf9fe099d44c9be5219aadf9addbe, 0xad2f7357872e357b81eb7231d823e88d, 0xad43975b07574b83a1ddb2ccb1d31f2f,
  0xad66f156a3643855b2471637c3bf5dca, 0xad6816ef291148ca897b92960afd0707, 0xadbf2c7119594228891d786cb8e1c9af,
  0xaea1f133b100432693b61e1ef167e053, 0xaf2c52f500f744f3bdeda6bc7d8feb71, 0xaf4ccf13475c472a9fb84060915d4a24,
  0xaf59dadf755847f1bb4e06ae3d3dfdc8, 0xaf8baaecc54348f8a32c4997fea50062, 0xafaa13656f7a4b14900ea001166ed2c3,
  0xb05d7ff845244b249529a209cf7e03a4, 0xb0b35c246a3633bb9726c396841c8f85, 0xb16d164dfc1d46eb9b5bc51b237c7a91,
  0xb1a81e4f8a3744378a4db2c60f6d9176, 0xb26425e7d6af41dd8cdcc23095aa09b8, 0xb28215f4d88445c586a15eb122aa598b,
  0xb30ae6a6030a427aaf96e1715837125b, 0xb35edfd0d43f41d79ed7c8928d463bff, 0xb3d7600cdbdf40dc9f92b9fbbbe17580,
  0xb3ef87cdc7be4528bd50d31b01ebb88a]

set_option maxRecDepth 100000 in
theorem keys11 : table11.map Prod.fst = numbers11.map keyText := by eq_refl

/-- The numbers of the keys. -/
def numbers12 : List Nat := [
  0xb459dca6ed60464786d1d8730e4aec1d, 0xb4e310c6ff4a45cfbd0a44a2bfb17d4f, 0xb504fd08598e48f6923f9355c5f00de0,
  0xb56df007dec64a2ba2a982d8f3bd434a, 0xb5d3b18784a946ecb5d3d77ce2632873, 0xb67feec7cbde40f48e0a7ab4f86d8c6b,
  0xb74bd2eb6ac44b929af144c8b6d782cf, 0xb7fa3edc9fc4464783101b7f7bd6c42b, 0xb81d505cdc0a4aa48d73bc02ac45d572,
  0xb85d3f12680d4b3ba357d03d82519eab, 0xb9e958349a13408dbdd2d637f5333e4a, 0xba4734f3e5224f68bad990f302752058,
  0xbaa69369e5594f7f9bd835989841cd7d, 0xbb4a3b8c3c134d3186b2a3fa611d8794, 0xbb793b3eaa254bba8fcfaf72187e3f6e,
  0xbc4b21e5b30b46b08d36508735967077, 0xbc5e168606114d168df5811f5f50ec8d, 0xbc68e659e2b74e4ab889207c1f911b63,
  0xbd164267a3734f41b92fdb9503e0c850, 0xbd282cc0d3df4f1091e43d9673a3c48f, 0xbd7f5cd815fd424ea34d11642fbbb867,
  0xbdeb401e8bb9425199d20d744af9fe1a, 0xbf5c6392e889468fa953c5b2a3ebd0fa, 0xbfc665777fe4407aa577b3f3beb3819d,
  0xc0038672a8cf11d3a05b006094eb75cb, 0xc12e069fad5e4c45a7c5ac961bf6e39e, 0xc203e5a8c3d94d7ab4fdbcb59fe26463,
  0xc224fec86a364899b72ab4c3e6027ef5, 0xc226a11422984553b1d2e8b9ed439c13, 0xc28e5282dc2f44998317575a69cd92b3,
  0xc4954328a1b340c8808270ed8c09297c, 0xc51f611a2d7e4f2f98caaf6e76dfaad0, 0xc529a163293744c1b73e19abe4ab07c9,
  0xc592b116313f4c48eee98e003d5b6a56, 0xc5ee5cd334e745ccab5214b5f5d6c9e1, 0xc5f66319fd7e4d67a6684fdb672afc6a,
  0xc6219ca9820a44688545285fc46d5236, 0xc68cb0cd17db4c758f00884b806313fd, 0xc6b284b0db344e7f9f94a313cba84b4f,
  0xc712ce4f5a5f4d9196f2c569ef7b73a7, 0xc72888dde6d74dce85cecece8c2949e5, 0xc86a0c963e8b4bab9791c337c9575316,
  0xc8ded9580a83418a84b1a718513fa6f7, 0xc8fb8e704a054b33bf623b073baebcf7, 0xc9129688d29a4c92bf348158f6dda0a1,
  0xc92ad0d886fb46ebab8fef01374f226a, 0xc9b9ab5b883743d7b85067299d338c68, 0xcb0165ffa5e44896b0bdaa4051fc5182,
  0xcb24e512e6d94168868d289f1b87905b]

set_option maxRecDepth 100000 in
theorem keys12 : table12.map Prod.fst = numbers12.map keyText := by eq_refl

/-- The numbers of the keys. -/
def numbers13 : List Nat := [
  0xcc1b87f8163b422bb79311a90575a407, 0xccced2260eef37738ee3d91acdc9b200, 0xcd92bab53ae44e268e84beb83682394e,
  0xcde7fa8069b0445ab9daacf08208ea60, 0xcdf5cef8596b4bd494c2a7db7127d804, 0xce46081f1e4b48d7b612937bd56e79cb,
  0xce50a44325fe4a4fab515aae1fce9e64, 0xce65aa76df184d0f9adc332c0295fdd2, 0xcebfed294bc24b1d886ad873439de7a4,
  0xcecbf0105e2e4f01a38442c64ca0c038, 0xcee8ef347fcf41b3bb08d1e68c89b07e, 0xd118e18ecd0c47d5a744e1009fda5e32,
  0xd2e23732f60341ec9f1f90fcbdc68e20, 0xd514b1252d03436ea3ff7bb9dc22f508, 0xd59dbc808f164ee2aec9a9516404ccda,
  0xd5d7b8b845df48d9afeb06cf721be469, 0xd657a468b03f4e29a1d26c560c6d01d5, 0xd6be8f38bff24791956b9bb2f005a7a3,
  0xd7bafcee7c014e9e8111c0521d3ce314, 0xd82dd5eda16347c3ae72018a29f827b5, 0xd84963b21b0742899756572b79dbb3a8,
  0xd96ac0e3a46d43b4a290675e8613580a, 0xd97e83992b794330a830683581773417, 0xda209e7c4bc9416eae4deeabc6ce9137,
  0xda56ef02819a378a9c8e8283678eb359, 0xdacabc400bd64016b2700d0b17194609, 0xdaef4b6ee30f4fe78a9a75d25c173218,
  0xdba3adea9e1a49128293de5bd37e01c3, 0xdbdb935edb4c4d27aea102dd6c1d62e2, 0xdcf129aeeb974c2383db4a3d2f5938cd,
  0xdd11488ecdc048739ba6206ea08b6fc0, 0xdd224e72d2e1423a8d6b17e221d94471, 0xde5f661a713544759591e00a7eb41951,
  0xdf35c26901eb4b07bf26d796ee6fb380, 0xe1f968005ee14543a7747a13904605e4, 0xe23cbf37e945427188c58103378ef1ce,
  0xe2e0e7690ff4350c9f3eaeb23e09b449, 0xe319c7568a90480386a184f106797f3a, 0xe3443c1944224f26ac06d36c5ec4081c,
  0xe36f0b5e81f84240830b22636a7f6283, 0xe4962320226711d38a4c0050040ef7d2, 0xe4962322226711d38a4c0050040ef7d2,
  0xe4962323226711d38a4c0050040ef7d2, 0xe4a8620db6c34366a469abffd34c26ac, 0xe539f84c5eea49eea381df7fec2147d3,
  0xe5a302fe22ed40abba0a663f6bcc1dc9, 0xe5c6182d54f3315bba2b396e07a6ef9d, 0xe6f955c49b7547cda66beae6a77cdf71,
  0xe735afe6d82845c3b52644e7ac24c691]

set_option maxRecDepth 100000 in
theorem keys13 : table13.map Prod.fst = numbers13.map keyText := by eq_refl

/-- The numbers of the keys. -/
def numbers14 : List Nat := [
  0xe796d51bab794311a34df705115470b2, 0xe7eedb4f534344eaaa7e0fe49e180631, 0xe81e8e9c48a54ba6be74287025f4ef8d,
  0xe90b5f8551a54c8c897d5dd632fefb5e, 0xe91420385b194d2a8d6fffc04deab0ef, 0xe999728717b64eb987d6bb6da372ee08,
  0xe9e9f37e10294cf38ab86ec719e07647, 0xea6611b6c82735bea94e73a8c7718316, 0xeae3e18fc9334670b9c3606b6d69f44b,
  0xeb27c63d5ac441a1b44fbd6cbb5c739f, 0xebef3f2597a942728aa2e6b2119c113e, 0xeca565debaca4b59b177abad63dfb320,
  0xecaea72d8381418cac52524ba2f7f61d, 0xed8677550a093e6db1c3460b9f10eb26, 0xed8738c95fa84e0aa023e75d084bbaf6,
  0xed95be7092e44db9ada3c4c20ca38c39, 0xee556712b0b645e88d4f61a7d93063d4, 0xeef06cc976e448e29ca2f50120134c1a,
  0xef617dfd8cc343f6bef052ab770db6f6, 0xf179a10dcd4c4d71b7d68bbebc619f20, 0xf222bebba8724023a4464e179a87ded9,
  0xf25cfaab4b644c92985fe49dc4b8fd90, 0xf4a60a9840e3323d96a6654d766937b1, 0xf6af4f0b156b4d29b66dc6014d72c930,
  0xf75eab65ba3c4d53bfe8a7ffb4a673f1, 0xf7e319cf25a44c0990691fb42501ac19, 0xf7ec5d2cc1c248b5b034b40b55f5a5a0,
  0xf7ffed29fc8e43ed943a4b57b5c157ee, 0xf85ea44194d4471db363db7f7e53f4f0, 0xf8c03cbaac1e11d380e4006008143e6f,
  0xf903758d45074489b926d03326717e5e, 0xf91052d568c34558970a894366d3c41a, 0xf9c5c296a9c742859db1381df66a1442,
  0xf9e7a26e6f934130a9c3e4d0e6e33775, 0xf9fea6e7e7a54275a15bb0e5adaeefd1, 0xfaed306c0cef46d3a32132f0f19e0069,
  0xfb493202491a46a2bbb6e2ede849a078, 0xfb60444821684c149b1c695a51854e70, 0xfb71aadc793e4d5f62efce7c27433d5b,
  0xfb952806f3f74f3e9d5b3022dd2d7d7c, 0xfbd10010d8264dc6972d9a602d2478d8, 0xfc9fbf7b36294abf8f08fe4ac5121c7f,
  0xfcba3888ca144dcc8275ec02f80971ee, 0xfd9c6aca19b4460392645bfe4196a232, 0xfdb79644b7724ef6a918de6a9797ad85,
  0xfde432b4d1f63a389c020aa820963f76, 0xfeb72a6bd608453f9b5c428b6b9fcdc3, 0xfed0cdcfc89f444b8b2d930564bde27f,
  0xff011fb9962442478b6708d416073567]

set_option maxRecDepth 100000 in
theorem keys14 : table14.map Prod.fst = numbers14.map keyText := by eq_refl

/-- The numbers of all keys. -/
def numbers : List Nat :=
  numbers0 ++ numbers1 ++ numbers2 ++ numbers3 ++ numbers4 ++ numbers5 ++ numbers6 ++ numbers7 ++ numbers8 ++ numbers9 ++ numbers10 ++ numbers11 ++ numbers12 ++ numbers13 ++ numbers14

theorem keys_all : parameterUuids.map Prod.fst = numbers.map keyText := by
  unfold parameterUuids numbers
  simp only [List.map_append, keys0, keys1, keys2, keys3, keys4, keys5, keys6, keys7, keys8, keys9, keys10, keys11, keys12, keys13, keys14]

theorem numbers_sorted : numbers.IsChain (· < ·) := by decide +kernel

theorem numbers_lt : ∀ v ∈ numbers, v < 2 ^ 128 := by decide +kernel

theorem names_size : (parameterUuids.all fun p => decide (p.2.utf8ByteSize ≠ 36)) = true := by decide +kernel

theorem table_keys : ∀ p ∈ parameterUuids, ∃ u, uuidText u = p.1.toList := by
  intro p hp
  have h : p.1 ∈ parameterUuids.map Prod.fst := List.mem_map_of_mem hp
  rw [keys_all] at h
  obtain ⟨v, -, h⟩ := List.mem_map.1 h
  exact ⟨ofNumber v, by rw [← h, keyText_eq]⟩

theorem keys_nodup : (parameterUuids.map Prod.fst).Nodup := by
  rw [keys_all]
  have h : numbers.Nodup := (List.isChain_iff_pairwise.1 numbers_sorted).imp fun h => Nat.ne_of_lt h
  exact h.map_on fun v hv w hw he => keyText_inj (numbers_lt v hv) (numbers_lt w hw) he

theorem table_unique {p q : String × String} (hp : p ∈ parameterUuids) (hq : q ∈ parameterUuids) (h : p.1 = q.1) : p = q :=
  List.inj_on_of_nodup_map keys_nodup hp hq h

theorem uuidText_size (u : UUID) : (String.ofList (uuidText u)).utf8ByteSize = 36 := by
  have key : ∀ l : List Char, (∀ c ∈ l, c.utf8Size = 1) → (String.ofList l).utf8ByteSize = l.length := by
    intro l
    induction l with
    | nil => intro _; rfl
    | cons c l ih =>
      intro h
      have h1 := ih fun c hc => h c (List.mem_cons_of_mem _ hc)
      rw [← String.size_toByteArray, String.toByteArray_ofList] at h1 ⊢
      rw [List.utf8Encode_cons, ByteArray.size_append, h1, ← String.toByteArray_singleton, String.size_toByteArray,
        String.utf8ByteSize_singleton, h c List.mem_cons_self, List.length_cons, Nat.add_comm]
  have hd : ∀ n < 16, (hexChar n).utf8Size = 1 := by decide
  have hx : ∀ l : Bytes, ∀ c ∈ l.flatMap (fun b => fmtHex 2 b.toNat), c.utf8Size = 1 := by
    intro l c hc
    obtain ⟨b, -, hb⟩ := List.mem_flatMap.1 hc
    have h := b.toNat_lt
    simp only [fmtHex_byte, hexByte, List.mem_cons, List.not_mem_nil, or_false] at hb
    rcases hb with rfl | rfl
    · exact hd _ (by omega)
    · exact hd _ (by omega)
  have hm : ∀ c ∈ ['-'], c.utf8Size = 1 := by decide
  rw [key _ ?_, uuidText_length]
  unfold uuidText
  simp only [List.mem_append]
  intro c hc
  rcases hc with (((((((hc | hc) | hc) | hc) | hc) | hc) | hc) | hc) | hc
  all_goals first | exact hm c hc | exact hx _ c hc

theorem table_names : ∀ p ∈ parameterUuids, ∀ u, uuidText u ≠ p.2.toList := by
  intro p hp u h
  have h1 := of_decide_eq_true (List.all_eq_true.1 names_size p hp)
  have h2 : String.ofList (uuidText u) = p.2 := by rw [h, String.ofList_toList]
  rw [← h2, uuidText_size] at h1
  exact h1 rfl

end Params
end Avb
