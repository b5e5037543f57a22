import Verif.Model.Binary
import Verif.Model.Utils
import Verif.Model.Bigint
import Verif.Model.FieldUtils
import Verif.Model.Sizes
import Verif.Model.Counters
import Verif.Model.GroupsEdwards
/-!
# The model against the expected values in libff's own tests

These are tests of the model, not proofs of properties. Every fixed product in
libff/algebra/fields/tests/test_binary_fields.cpp (which the project generated with Sage) and every
other fixed value in test_common.cpp, test_field_utils.cpp and test_all_fields.cpp is computed by the
model and compared by the kernel. A slip in transcribing a loop, a shift or a reduction polynomial would show up here.
-/

namespace Libff.TestVectors

/-- All the rows `(a, b, c)` satisfy `a * b = c`. -/
def products {K : Type} [DecidableEq K] (mul : K → K → K) (rows : List (K × K × K)) : Bool :=
  rows.all fun r => mul r.1 r.2.1 = r.2.2

/-- The products expected of `gf32`, test_binary_fields.cpp:56-65. -/
def gf32 : List (GF32 × GF32 × GF32) := [
  (⟨0xec71187b⟩, ⟨0x3c2b4dc6⟩,
   ⟨0x18a792bd⟩),
  (⟨0xe24186cd⟩, ⟨0xc7b13dc2⟩,
   ⟨0x5d8822c4⟩),
  (⟨0x0c053421⟩, ⟨0xe357be15⟩,
   ⟨0x9692f4d2⟩),
  (⟨0xd0d42130⟩, ⟨0x3e597e24⟩,
   ⟨0xc7ea9d01⟩),
  (⟨0x394b1a86⟩, ⟨0x3674def5⟩,
   ⟨0xafa1ca21⟩),
  (⟨0xaf9995cb⟩, ⟨0x4c12835b⟩,
   ⟨0x795b61fe⟩),
  (⟨0x494cccf7⟩, ⟨0x47d58182⟩,
   ⟨0xab95d1be⟩),
  (⟨0x00f6c1e7⟩, ⟨0x1dc6cb1e⟩,
   ⟨0x2d4bd0c9⟩),
  (⟨0x81fe4a5f⟩, ⟨0xc975aa50⟩,
   ⟨0x6f64a32e⟩),
  (⟨0x6903f854⟩, ⟨0x701eca01⟩,
   ⟨0xee8735bb⟩)]

example : products GF32.mul gf32 = true := by decide +kernel

/-- The products expected of `gf64`, test_binary_fields.cpp:80-89. -/
def gf64 : List (GF64 × GF64 × GF64) := [
  (⟨0x4c12835baf9995cb⟩, ⟨0x47d58182494cccf7⟩,
   ⟨0xcd8d885948717796⟩),
  (⟨0x1dc6cb1e00f6c1e7⟩, ⟨0xc975aa5081fe4a5f⟩,
   ⟨0x68a12cd69de5ba13⟩),
  (⟨0x701eca016903f854⟩, ⟨0x1bff27de896d5a63⟩,
   ⟨0x3f2b03920fe6f850⟩),
  (⟨0x84949f71b013dafd⟩, ⟨0xc8642090f94902a6⟩,
   ⟨0x0260be4b638467b4⟩),
  (⟨0x415405db8945dfb1⟩, ⟨0xe45f3b3b4fafbbfd⟩,
   ⟨0xeedd9f3f9a790308⟩),
  (⟨0x4556f8aac66f427f⟩, ⟨0xb1d2219b0266de02⟩,
   ⟨0xbdfd1cb2a183fd56⟩),
  (⟨0x3dddbcee3039f5fc⟩, ⟨0xfc9de0af7ec40b3f⟩,
   ⟨0xab78b6d459d0d7a9⟩),
  (⟨0xc63a3ae27b186b00⟩, ⟨0x7218e0e28cba2bad⟩,
   ⟨0x7cc11d40edaf1d46⟩),
  (⟨0xbfe1ca4a7ccb135f⟩, ⟨0x6cbf9a222a7f80a7⟩,
   ⟨0x6afbe201c18d9334⟩),
  (⟨0x38567cdad827aacf⟩, ⟨0xfa309c33b717dd13⟩,
   ⟨0xc2db83d1400e7d58⟩)]

example : products GF64.mul gf64 = true := by decide +kernel
example : products GF64.mulAsm gf64 = true := by decide +kernel

/-- The products expected of `gf128`, test_binary_fields.cpp:103-112. -/
def gf128 : List (GF128 × GF128 × GF128) := [
  (⟨0x4556f8aac66f427f, 0xb1d2219b0266de02⟩, ⟨0x3dddbcee3039f5fc, 0xfc9de0af7ec40b3f⟩,
   ⟨0x14c9965cbb45f242, 0xf0b63cd2d8d9acb7⟩),
  (⟨0xc63a3ae27b186b00, 0x7218e0e28cba2bad⟩, ⟨0xbfe1ca4a7ccb135f, 0x6cbf9a222a7f80a7⟩,
   ⟨0x94cf56a81986e62f, 0x9a68dc276e08964a⟩),
  (⟨0x38567cdad827aacf, 0xfa309c33b717dd13⟩, ⟨0x3590e0c94d76b16a, 0x8418b817f5caf84c⟩,
   ⟨0xa52cdf9b42326edc, 0x0d4af0a0c7778f42⟩),
  (⟨0x0cdc30af062ba589, 0xf7903a9c58e4223c⟩, ⟨0x8d73a6d58a9833ad, 0x4193e34b8241b8b6⟩,
   ⟨0x40b58b1663f1e7ba, 0x1aebbb2a40e6bdc5⟩),
  (⟨0x657e286088c96142, 0x81f59dadf3516810⟩, ⟨0x56aa86373c498fdd, 0x12356e70b09e27a6⟩,
   ⟨0x3d0721c2dd988b1d, 0x6f1931b5b32adfd6⟩),
  (⟨0x614becf0f6981970, 0x0fe9a9f10ea6b3be⟩, ⟨0x897bb93561e04d72, 0xf764a67447957a65⟩,
   ⟨0x29ead6ff7a231a76, 0x7082df4ae39182f8⟩),
  (⟨0x5d1bce4867374275, 0xb6f0e7fe834a305f⟩, ⟨0x7625671a07a1b127, 0xf507be43450e596c⟩,
   ⟨0x288b33919644a559, 0x7d87898bb86b9700⟩),
  (⟨0x7009d6ea6cbc3723, 0x00a7fced16ffa59b⟩, ⟨0x23fad70584b9ff24, 0xb4dab96b1454919d⟩,
   ⟨0xbb823abc98939fae, 0x6f67249586163ab9⟩),
  (⟨0xac2c97ebcf121998, 0x5756b56a1d208f91⟩, ⟨0x0fd73239d93bd077, 0x633c9cefc089eb74⟩,
   ⟨0x9dfa616729b5e040, 0xb2658b016f98c47f⟩),
  (⟨0xc1c42adfa999b078, 0xf55ab02f9dae69b8⟩, ⟨0x49bfcd0bd4d96b01, 0xfae308c406eb08fe⟩,
   ⟨0x9bcec94d9f08f412, 0xdf0f7f62ecc610e1⟩)]

example : products GF128.mul gf128 = true := by decide +kernel
example : products GF128.mulAsm gf128 = true := by decide +kernel

/-- The products expected of `gf192`, test_binary_fields.cpp:125-134. -/
def gf192 : List (GF192 × GF192 × GF192) := [
  (⟨0x3590e0c94d76b16a, 0x8418b817f5caf84c, 0x0cdc30af062ba589⟩, ⟨0xf7903a9c58e4223c, 0x8d73a6d58a9833ad, 0x4193e34b8241b8b6⟩,
   ⟨0x601e9baa99e6b2fd, 0xc223197d04425354, 0xedb2d77042f07f3e⟩),
  (⟨0x657e286088c96142, 0x81f59dadf3516810, 0x56aa86373c498fdd⟩, ⟨0x12356e70b09e27a6, 0x614becf0f6981970, 0x0fe9a9f10ea6b3be⟩,
   ⟨0x0b86792ebec24165, 0x2ed578d8f170b814, 0xcf0642476758587a⟩),
  (⟨0x897bb93561e04d72, 0xf764a67447957a65, 0x5d1bce4867374275⟩, ⟨0xb6f0e7fe834a305f, 0x7625671a07a1b127, 0xf507be43450e596c⟩,
   ⟨0x1d01f4493cf9f6bf, 0xa0d43a4a59167a19, 0x2d43614daf895767⟩),
  (⟨0x7009d6ea6cbc3723, 0x00a7fced16ffa59b, 0x23fad70584b9ff24⟩, ⟨0xb4dab96b1454919d, 0xac2c97ebcf121998, 0x5756b56a1d208f91⟩,
   ⟨0x35ce63ac64f58838, 0x91b61a18bdb18fd4, 0x0b31e0f4e429e2d8⟩),
  (⟨0x0fd73239d93bd077, 0x633c9cefc089eb74, 0xc1c42adfa999b078⟩, ⟨0xf55ab02f9dae69b8, 0x49bfcd0bd4d96b01, 0xfae308c406eb08fe⟩,
   ⟨0x598aefe615b5a49a, 0x5c081d84ee58552d, 0xecd19c6c59d10ede⟩),
  (⟨0xd2c36d17d828d9b4, 0x512288f4b06917d3, 0xf2e6b1294f40ac62⟩, ⟨0x1cf009d26ee1f80f, 0x9a2789bfb11c03c4, 0x206901073d267fa5⟩,
   ⟨0x75fb9afdb21f1278, 0x1e6f3c0f65f3b25d, 0x68fd98a8545f9688⟩),
  (⟨0x7766723a1141eddc, 0x579c25544b3ba640, 0xc78b2478a98afb85⟩, ⟨0x84eb9e2187501666, 0x224aa1e6e025b316, 0x1d5e8949c38296e0⟩,
   ⟨0x742cb900f1d5bcf9, 0xd9f5f3be81d6054d, 0xd33304755a3790f5⟩),
  (⟨0xe4e8ae96b691f6d2, 0xfaaf7393e729adf5, 0x75bee645ed32bf73⟩, ⟨0x034858f4f1f7b14b, 0x0d6f1491ffab6313, 0x94659c82eed44ed6⟩,
   ⟨0x930bfcefe10d3166, 0xcafb5a359d76233d, 0x998f56abe7e4348f⟩),
  (⟨0x4105e1bce7fda1a5, 0xae8f8592118650df, 0x9ded3331f7e20e08⟩, ⟨0xae333a6c2e525a7e, 0xeab6bb9efffe16f2, 0x22677e786437ded8⟩,
   ⟨0xf80ac10929fc7e3f, 0x2803fd759a41f4e0, 0x981afe97f038b8e7⟩),
  (⟨0xc9a973387db34f3c, 0x4b28b4a78b34aed6, 0x13ee2aa2bc56bb9f⟩, ⟨0x724efc0872e555d7, 0xbee979d0d3e73491, 0x5980393a96b7e262⟩,
   ⟨0x2de0b46a441b4738, 0x90b969c3def4555f, 0xce5179b296413b74⟩)]

example : products GF192.mul gf192 = true := by decide +kernel
example : products GF192.mulAsm gf192 = true := by decide +kernel

/-- The products expected of `gf256`, test_binary_fields.cpp:147-156. -/
def gf256 : List (GF256 × GF256 × GF256) := [
  (⟨0x614becf0f6981970, 0x0fe9a9f10ea6b3be, 0x897bb93561e04d72, 0xf764a67447957a65⟩, ⟨0x5d1bce4867374275, 0xb6f0e7fe834a305f, 0x7625671a07a1b127, 0xf507be43450e596c⟩,
   ⟨0x15b45070f9272694, 0x206521a58a74c76d, 0x84aedc89d9eef7d5, 0x7830000656b147bb⟩),
  (⟨0x7009d6ea6cbc3723, 0x00a7fced16ffa59b, 0x23fad70584b9ff24, 0xb4dab96b1454919d⟩, ⟨0xac2c97ebcf121998, 0x5756b56a1d208f91, 0x0fd73239d93bd077, 0x633c9cefc089eb74⟩,
   ⟨0xa0abd7439b4a90b4, 0xf4974416b3ec0351, 0xb988c6486912b0ff, 0xec433aa096b7c5a3⟩),
  (⟨0xc1c42adfa999b078, 0xf55ab02f9dae69b8, 0x49bfcd0bd4d96b01, 0xfae308c406eb08fe⟩, ⟨0xd2c36d17d828d9b4, 0x512288f4b06917d3, 0xf2e6b1294f40ac62, 0x1cf009d26ee1f80f⟩,
   ⟨0x81149bf7a2a4e9ef, 0x069ef58da6005ef0, 0x5a443906b0fd92f4, 0xd4c9b1f1b6032f4a⟩),
  (⟨0x9a2789bfb11c03c4, 0x206901073d267fa5, 0x7766723a1141eddc, 0x579c25544b3ba640⟩, ⟨0xc78b2478a98afb85, 0x84eb9e2187501666, 0x224aa1e6e025b316, 0x1d5e8949c38296e0⟩,
   ⟨0x81a1d4e28ecb3203, 0x6ca9b1401b327636, 0x42d345a89b213da0, 0xc92ed4a7f831b22e⟩),
  (⟨0xe4e8ae96b691f6d2, 0xfaaf7393e729adf5, 0x75bee645ed32bf73, 0x034858f4f1f7b14b⟩, ⟨0x0d6f1491ffab6313, 0x94659c82eed44ed6, 0x4105e1bce7fda1a5, 0xae8f8592118650df⟩,
   ⟨0xa0491208d489ad20, 0x0ece08a653d5d785, 0x155a26d3e04dc3f9, 0x3c58c4917b50380a⟩),
  (⟨0x9ded3331f7e20e08, 0xae333a6c2e525a7e, 0xeab6bb9efffe16f2, 0x22677e786437ded8⟩, ⟨0xc9a973387db34f3c, 0x4b28b4a78b34aed6, 0x13ee2aa2bc56bb9f, 0x724efc0872e555d7⟩,
   ⟨0x85ae031df2087301, 0xbd3b97df5ceaa321, 0x91f3134564072e28, 0x31c713050f9fe79f⟩),
  (⟨0xbee979d0d3e73491, 0x5980393a96b7e262, 0xbde830a033005e9d, 0xe103fdd38559f718⟩, ⟨0x49762387dc75fbcf, 0x3c84f51267ae0f3e, 0x6be4979855b9f4a1, 0x24d79165090b54bb⟩,
   ⟨0xf0774bdc5efd321b, 0x9d964ce7c25f9cc4, 0xcb2caa9c1491eb09, 0xaf3c148f5a6d62b6⟩),
  (⟨0xe1ed007e6b4d18c4, 0xd4cb229a76bbfdf8, 0x7ebb79ea0539aab6, 0xc8d362a82d40e33d⟩, ⟨0x11ce6283a327c2ae, 0xd059de8a3f216806, 0x2fa0d6324909d6bc, 0xc5ff42586ffe84be⟩,
   ⟨0xd9be899417749c66, 0x786f09fc7add372a, 0x3716b1b7b85aa29f, 0x6d8f5131a50a1174⟩),
  (⟨0xd6910fac0958e021, 0xad04af41cefd288c, 0xd4926e0f5173ba59, 0xa34a5c6dc2269e92⟩, ⟨0x3c4ddb6e1d7bdf2b, 0x471c649050d8df10, 0xe2df550b05c8346b, 0xb8efe59559134148⟩,
   ⟨0x9b8880399d5b6f17, 0x94a98345cd1c505e, 0xf4df56b7f489a233, 0x31bc02040d35ef67⟩),
  (⟨0xfe328eb0319d0dd7, 0xb920792cb175a788, 0xbbd7c0e1cb89df45, 0x0dd2d419a879877e⟩, ⟨0xbbc51592da56e2fe, 0x06b95b1542038a8a, 0x449e2950c151d1f4, 0xfdd10984711604a6⟩,
   ⟨0x480e988c351ac9f3, 0xb441d39d98693d34, 0x8bb81c1be4902348, 0x5eac8a0dfe585d7d⟩)]

example : products GF256.mul gf256 = true := by decide +kernel
example : products GF256.mulAsm gf256 = true := by decide +kernel
example : products GF256.mulAsmKaratsuba gf256 = true := by decide +kernel

/-- `Log2Test.SimpleTest`, test_common.cpp:20-32. -/
example : ((List.range 10).map fun n => log2 (BitVec.ofNat 64 n)) = [0, 0, 1, 2, 2, 3, 3, 3, 3, 4] := by
  decide +kernel

/-- `Log2Test.PowersOfTwo`, test_common.cpp:34-42. -/
example : ∀ i ∈ List.range' 10 10, log2 (BitVec.ofNat 64 (2 ^ i - 1)) = i ∧ log2 (BitVec.ofNat 64 (2 ^ i)) = i ∧
    log2 (BitVec.ofNat 64 (2 ^ i + 1)) = i + 1 := by decide +kernel

/-- `UtilsTest.CurveVectorSizeTest`, test_common.cpp:66-91: three points of `edwards_G1` have 552 bits, five of `mnt6_G2` 4475. -/
example : 3 * (groupInfo (fpInfo edwards_Fq_data) edwards_Fr_params).sizeInBits = 552 ∧
    5 * (groupInfo (fp3Info mnt6_Fq_data) mnt6_Fr_params).sizeInBits = 4475 := by decide +kernel

/-- The characters of a literal. -/
def chars (s : String) : List (BitVec 8) := s.toList.map fun c => BitVec.ofNat 8 c.toNat

/-- `FieldUtilsTest.BigintTest`, test_field_utils.cpp:56-106. -/
example : ∃ zero one x y w,
    bigintOfString 3 (chars "0") = .ok zero ∧ bigintOfString 3 (chars "1") = .ok one ∧
    bigintOfString 3 (chars "987654567895678909876876545678909876543456") = .ok x ∧
    bigintOfString 3 (chars "324531232345676543272920293863628304859020") = .ok y ∧
    bigintOfString 3 (chars "987654567895678909876876545678909876543451") = .ok w ∧
    zero = [0, 0, 0] ∧ one = [1, 0, 0] ∧ zero ≠ one ∧ x ≠ one ∧ x ≠ zero ∧ x ≠ y ∧
    bigintIsEven x = true ∧ bigintIsEven y = true ∧ bigintIsEven zero = true ∧
    bigintIsEven one = false ∧ bigintIsEven w = false ∧
    bigintLt zero one = true ∧ bigintLt zero x = true ∧ bigintLt zero y = true ∧ bigintLt one x = true ∧
    bigintLt y x = true ∧ bigintLt w x = true ∧ bigintLt y w = true ∧ bigintLt x y = false :=
  ⟨limbsOf 3 0, limbsOf 3 1, limbsOf 3 987654567895678909876876545678909876543456,
    limbsOf 3 324531232345676543272920293863628304859020, limbsOf 3 987654567895678909876876545678909876543451,
    by decide +kernel⟩

/-- `FieldUtilsTest.FieldVectorConversionTest`, test_field_utils.cpp:108-136: 195 zeros followed by 1, 0, 1 pack
into the integers 0 and 40960. -/
example : packBitVector (fun b => val b) 3 true (fpInfo edwards_Fq_data).floorBits
    (List.replicate (12 + (fpInfo edwards_Fq_data).ceilBits) false ++ [true, false, true]) (fpInfo edwards_Fq_data).floorBits
      = .ok [0, 40960] := by decide +kernel

/-- The same test, 138-155. -/
example : (bitsToFieldVec [false, false, true, false, true] : List edwards_Fq) = [0, 0, 1, 0, 1] := rfl

/-- The same test, 157-171: the bits of 5 and 0. -/
example : fieldVecToBits (fun v => limbsOf 3 v) (fpInfo edwards_Fq_data).ceilBits [5, 0] =
    [true, false, true] ++ List.replicate (2 * (fpInfo edwards_Fq_data).ceilBits - 3) false := by decide +kernel

/-- `test_op_profiling`, test_all_fields.cpp:259-285; `x`, `y` and `x'` are the random elements. -/
def opProfiling {C K : Type} (F : CField C K) (one x y x' : K) : CM C Unit := do
  let x ← F.add x y
  let _ ← F.add x one
  let x ← F.mul x (← F.add x y)
  let y ← F.sub (← F.add (← F.mul x y) (← F.inverse one)) (← F.mul x one)
  let y ← F.squared y
  let _ ← F.sub x (← F.squared y)
  let x ← F.inverse x'
  let x ← F.sub x one
  let _ ← F.mul x (← F.mul x (← F.squared x))
  pure ()

/-- The counts the test expects. -/
def expected : Kind → Int
  | .add => 4 | .sub => 3 | .mul => 5 | .sqr => 3 | .inv => 2

/-- The test on elements of `gf32`. -/
example : (match opProfiling (gf32C true) 1 ⟨0xec71187b⟩ ⟨0x3c2b4dc6⟩ ⟨0xe24186cd⟩ (fun _ _ => 0) with
    | .ok (_, s) => [s .gf32 .add, s .gf32 .sub, s .gf32 .mul, s .gf32 .sqr, s .gf32 .inv]
    | _ => []) = [expected .add, expected .sub, expected .mul, expected .sqr, expected .inv] := by decide +kernel

end Libff.TestVectors
