import Verif.Ffi.Model
/-
The functions of concrete-core-ffi, translated by /verif/tools/ffi_table.py from the text of
/repo/concrete-core-ffi/src (generated file).

`checked` is the list of the checked functions, `pairs` associates each of them with its unchecked version.
-/
namespace Verif.Ffi.Table

/-- backends/default/engines/destroy.rs:11-20. -/
def destroy_glwe_ciphertext_view_u64 : Fn :=
  ⟨[.destroyed .glweView],
   [.check 0, .free 0]⟩

/-- backends/default/engines/destroy.rs:25-32. -/
def destroy_glwe_ciphertext_view_unchecked_u64 : Fn :=
  ⟨[.destroyed .glweView],
   [.free 0]⟩

/-- backends/default/engines/destroy.rs:38-47. -/
def destroy_glwe_ciphertext_mut_view_u64 : Fn :=
  ⟨[.destroyed .glweMutView],
   [.check 0, .free 0]⟩

/-- backends/default/engines/destroy.rs:52-59. -/
def destroy_glwe_ciphertext_mut_view_unchecked_u64 : Fn :=
  ⟨[.destroyed .glweMutView],
   [.free 0]⟩

/-- backends/default/engines/destroy.rs:65-74. -/
def destroy_lwe_ciphertext_view_u64 : Fn :=
  ⟨[.destroyed .lweView],
   [.check 0, .free 0]⟩

/-- backends/default/engines/destroy.rs:79-86. -/
def destroy_lwe_ciphertext_view_unchecked_u64 : Fn :=
  ⟨[.destroyed .lweView],
   [.free 0]⟩

/-- backends/default/engines/destroy.rs:92-101. -/
def destroy_lwe_ciphertext_mut_view_u64 : Fn :=
  ⟨[.destroyed .lweMutView],
   [.check 0, .free 0]⟩

/-- backends/default/engines/destroy.rs:106-113. -/
def destroy_lwe_ciphertext_mut_view_unchecked_u64 : Fn :=
  ⟨[.destroyed .lweMutView],
   [.free 0]⟩

/-- backends/default/engines/destroy.rs:119-128. -/
def destroy_lwe_ciphertext_vector_view_u64 : Fn :=
  ⟨[.destroyed .lweVectorView],
   [.check 0, .free 0]⟩

/-- backends/default/engines/destroy.rs:133-140. -/
def destroy_lwe_ciphertext_vector_view_unchecked_u64 : Fn :=
  ⟨[.destroyed .lweVectorView],
   [.free 0]⟩

/-- backends/default/engines/destroy.rs:146-155. -/
def destroy_lwe_ciphertext_vector_mut_view_u64 : Fn :=
  ⟨[.destroyed .lweVectorMutView],
   [.check 0, .free 0]⟩

/-- backends/default/engines/destroy.rs:160-167. -/
def destroy_lwe_ciphertext_vector_mut_view_unchecked_u64 : Fn :=
  ⟨[.destroyed .lweVectorMutView],
   [.free 0]⟩

/-- backends/default/engines/destroy.rs:173-182. -/
def destroy_lwe_circuit_bootstrap_private_functional_packing_keyswitch_keys_u64 : Fn :=
  ⟨[.destroyed .cbsPfpksk],
   [.check 0, .free 0]⟩

/-- backends/default/engines/destroy.rs:187-194. -/
def destroy_lwe_circuit_bootstrap_private_functional_packing_keyswitch_keys_unchecked_u64 : Fn :=
  ⟨[.destroyed .cbsPfpksk],
   [.free 0]⟩

/-- backends/default/engines/destroy.rs:200-207. -/
def destroy_lwe_secret_key_u64 : Fn :=
  ⟨[.destroyed .lweSecretKey],
   [.check 0, .free 0]⟩

/-- backends/default/engines/destroy.rs:212-219. -/
def destroy_lwe_secret_key_unchecked_u64 : Fn :=
  ⟨[.destroyed .lweSecretKey],
   [.free 0]⟩

/-- backends/default/engines/destroy.rs:225-234. -/
def destroy_glwe_secret_key_u64 : Fn :=
  ⟨[.destroyed .glweSecretKey],
   [.check 0, .free 0]⟩

/-- backends/default/engines/destroy.rs:239-246. -/
def destroy_glwe_secret_key_unchecked_u64 : Fn :=
  ⟨[.destroyed .glweSecretKey],
   [.free 0]⟩

/-- backends/default/engines/destroy.rs:252-260. -/
def destroy_lwe_keyswitch_key_u64 : Fn :=
  ⟨[.destroyed .keyswitchKey],
   [.check 0, .free 0]⟩

/-- backends/default/engines/destroy.rs:265-272. -/
def destroy_lwe_keyswitch_key_unchecked_u64 : Fn :=
  ⟨[.destroyed .keyswitchKey],
   [.free 0]⟩

/-- backends/default/engines/destroy.rs:278-286. -/
def destroy_lwe_keyswitch_key_mut_view_u64 : Fn :=
  ⟨[.destroyed .keyswitchKeyMutView],
   [.check 0, .free 0]⟩

/-- backends/default/engines/destroy.rs:291-298. -/
def destroy_lwe_keyswitch_key_mut_view_unchecked_u64 : Fn :=
  ⟨[.destroyed .keyswitchKeyMutView],
   [.free 0]⟩

/-- backends/default/engines/destroy.rs:304-313. -/
def destroy_lwe_seeded_keyswitch_key_u64 : Fn :=
  ⟨[.destroyed .seededKeyswitchKey],
   [.check 0, .free 0]⟩

/-- backends/default/engines/destroy.rs:318-325. -/
def destroy_lwe_seeded_keyswitch_key_unchecked_u64 : Fn :=
  ⟨[.destroyed .seededKeyswitchKey],
   [.free 0]⟩

/-- backends/default/engines/destroy.rs:331-339. -/
def destroy_lwe_bootstrap_key_u64 : Fn :=
  ⟨[.destroyed .bootstrapKey],
   [.check 0, .free 0]⟩

/-- backends/default/engines/destroy.rs:344-351. -/
def destroy_lwe_bootstrap_key_unchecked_u64 : Fn :=
  ⟨[.destroyed .bootstrapKey],
   [.free 0]⟩

/-- backends/default/engines/destroy.rs:357-365. -/
def destroy_lwe_bootstrap_key_mut_view_u64 : Fn :=
  ⟨[.destroyed .bootstrapKeyMutView],
   [.check 0, .free 0]⟩

/-- backends/default/engines/destroy.rs:370-377. -/
def destroy_lwe_bootstrap_key_mut_view_unchecked_u64 : Fn :=
  ⟨[.destroyed .bootstrapKeyMutView],
   [.free 0]⟩

/-- backends/default/engines/destroy.rs:383-391. -/
def destroy_lwe_seeded_bootstrap_key_u64 : Fn :=
  ⟨[.destroyed .seededBootstrapKey],
   [.check 0, .free 0]⟩

/-- backends/default/engines/destroy.rs:396-403. -/
def destroy_lwe_seeded_bootstrap_key_unchecked_u64 : Fn :=
  ⟨[.destroyed .seededBootstrapKey],
   [.free 0]⟩

/-- backends/default/engines/entity_deserialization.rs:15-36. -/
def default_serialization_engine_deserialize_lwe_secret_key_u64 : Fn :=
  ⟨[.ref .defaultSerializationEngine, .view, .result .lweSecretKey],
   [.check 2, .nullSlot 2, .check 0, .deref 0, .deref 1, .compute 0, .give 2]⟩

/-- backends/default/engines/entity_deserialization.rs:41-56. -/
def default_serialization_engine_deserialize_lwe_secret_key_unchecked_u64 : Fn :=
  ⟨[.ref .defaultSerializationEngine, .view, .result .lweSecretKey],
   [.nullSlot 2, .deref 0, .deref 1, .compute 0, .give 2]⟩

/-- backends/default/engines/entity_deserialization.rs:64-85. -/
def default_serialization_engine_deserialize_lwe_keyswitch_key_u64 : Fn :=
  ⟨[.ref .defaultSerializationEngine, .view, .result .keyswitchKey],
   [.check 2, .nullSlot 2, .check 0, .deref 0, .deref 1, .compute 0, .give 2]⟩

/-- backends/default/engines/entity_deserialization.rs:90-106. -/
def default_serialization_engine_deserialize_lwe_keyswitch_key_unchecked_u64 : Fn :=
  ⟨[.ref .defaultSerializationEngine, .view, .result .keyswitchKey],
   [.nullSlot 2, .deref 0, .deref 1, .compute 0, .give 2]⟩

/-- backends/default/engines/entity_deserialization.rs:114-135. -/
def default_serialization_engine_deserialize_lwe_seeded_keyswitch_key_u64 : Fn :=
  ⟨[.ref .defaultSerializationEngine, .view, .result .seededKeyswitchKey],
   [.check 2, .nullSlot 2, .check 0, .deref 0, .deref 1, .compute 0, .give 2]⟩

/-- backends/default/engines/entity_deserialization.rs:140-157. -/
def default_serialization_engine_deserialize_lwe_seeded_keyswitch_key_unchecked_u64 : Fn :=
  ⟨[.ref .defaultSerializationEngine, .view, .result .seededKeyswitchKey],
   [.nullSlot 2, .deref 0, .deref 1, .compute 0, .give 2]⟩

/-- backends/default/engines/entity_deserialization.rs:165-186. -/
def default_serialization_engine_deserialize_lwe_seeded_bootstrap_key_u64 : Fn :=
  ⟨[.ref .defaultSerializationEngine, .view, .result .seededBootstrapKey],
   [.check 2, .nullSlot 2, .check 0, .deref 0, .deref 1, .compute 0, .give 2]⟩

/-- backends/default/engines/entity_deserialization.rs:191-208. -/
def default_serialization_engine_deserialize_lwe_seeded_bootstrap_key_unchecked_u64 : Fn :=
  ⟨[.ref .defaultSerializationEngine, .view, .result .seededBootstrapKey],
   [.nullSlot 2, .deref 0, .deref 1, .compute 0, .give 2]⟩

/-- backends/default/engines/entity_deserialization.rs:216-237. -/
def default_serialization_engine_deserialize_lwe_bootstrap_key_u64 : Fn :=
  ⟨[.ref .defaultSerializationEngine, .view, .result .bootstrapKey],
   [.check 2, .nullSlot 2, .check 0, .deref 0, .deref 1, .compute 0, .give 2]⟩

/-- backends/default/engines/entity_deserialization.rs:242-258. -/
def default_serialization_engine_deserialize_lwe_bootstrap_key_unchecked_u64 : Fn :=
  ⟨[.ref .defaultSerializationEngine, .view, .result .bootstrapKey],
   [.nullSlot 2, .deref 0, .deref 1, .compute 0, .give 2]⟩

/-- backends/default/engines/entity_deserialization.rs:266-287. -/
def default_serialization_engine_deserialize_lwe_circuit_bootstrap_private_functional_packing_keyswitch_keys_u64 : Fn :=
  ⟨[.ref .defaultSerializationEngine, .view, .result .cbsPfpksk],
   [.check 2, .nullSlot 2, .check 0, .deref 0, .deref 1, .compute 0, .give 2]⟩

/-- backends/default/engines/entity_deserialization.rs:292-309. -/
def default_serialization_engine_deserialize_lwe_circuit_bootstrap_private_functional_packing_keyswitch_keys_unchecked_u64 : Fn :=
  ⟨[.ref .defaultSerializationEngine, .view, .result .cbsPfpksk],
   [.nullSlot 2, .deref 0, .deref 1, .compute 0, .give 2]⟩

/-- backends/default/engines/entity_serialization.rs:15-34. -/
def default_serialization_engine_serialize_lwe_secret_key_u64 : Fn :=
  ⟨[.ref .defaultSerializationEngine, .ref .lweSecretKey, .resultBuf],
   [.check 2, .check 0, .deref 0, .check 1, .deref 1, .compute 0, .giveBytes 2]⟩

/-- backends/default/engines/entity_serialization.rs:39-52. -/
def default_serialization_engine_serialize_lwe_secret_key_unchecked_u64 : Fn :=
  ⟨[.ref .defaultSerializationEngine, .ref .lweSecretKey, .resultBuf],
   [.deref 0, .deref 1, .compute 0, .giveBytes 2]⟩

/-- backends/default/engines/entity_serialization.rs:60-79. -/
def default_serialization_engine_serialize_lwe_keyswitch_key_u64 : Fn :=
  ⟨[.ref .defaultSerializationEngine, .ref .keyswitchKey, .resultBuf],
   [.check 2, .check 0, .deref 0, .check 1, .deref 1, .compute 0, .giveBytes 2]⟩

/-- backends/default/engines/entity_serialization.rs:84-97. -/
def default_serialization_engine_serialize_lwe_keyswitch_key_unchecked_u64 : Fn :=
  ⟨[.ref .defaultSerializationEngine, .ref .keyswitchKey, .resultBuf],
   [.deref 0, .deref 1, .compute 0, .giveBytes 2]⟩

/-- backends/default/engines/entity_serialization.rs:105-124. -/
def default_serialization_engine_serialize_lwe_seeded_keyswitch_key_u64 : Fn :=
  ⟨[.ref .defaultSerializationEngine, .ref .seededKeyswitchKey, .resultBuf],
   [.check 2, .check 0, .deref 0, .check 1, .deref 1, .compute 0, .giveBytes 2]⟩

/-- backends/default/engines/entity_serialization.rs:129-142. -/
def default_serialization_engine_serialize_lwe_seeded_keyswitch_key_unchecked_u64 : Fn :=
  ⟨[.ref .defaultSerializationEngine, .ref .seededKeyswitchKey, .resultBuf],
   [.deref 0, .deref 1, .compute 0, .giveBytes 2]⟩

/-- backends/default/engines/entity_serialization.rs:150-170. -/
def default_serialization_engine_serialize_lwe_seeded_bootstrap_key_u64 : Fn :=
  ⟨[.ref .defaultSerializationEngine, .ref .seededBootstrapKey, .resultBuf],
   [.check 2, .check 0, .deref 0, .check 1, .deref 1, .compute 0, .giveBytes 2]⟩

/-- backends/default/engines/entity_serialization.rs:175-189. -/
def default_serialization_engine_serialize_lwe_seeded_bootstrap_key_unchecked_u64 : Fn :=
  ⟨[.ref .defaultSerializationEngine, .ref .seededBootstrapKey, .resultBuf],
   [.deref 0, .deref 1, .compute 0, .giveBytes 2]⟩

/-- backends/default/engines/entity_serialization.rs:197-217. -/
def default_serialization_engine_serialize_lwe_bootstrap_key_u64 : Fn :=
  ⟨[.ref .defaultSerializationEngine, .ref .bootstrapKey, .resultBuf],
   [.check 2, .check 0, .deref 0, .check 1, .deref 1, .compute 0, .giveBytes 2]⟩

/-- backends/default/engines/entity_serialization.rs:222-236. -/
def default_serialization_engine_serialize_lwe_bootstrap_key_unchecked_u64 : Fn :=
  ⟨[.ref .defaultSerializationEngine, .ref .bootstrapKey, .resultBuf],
   [.deref 0, .deref 1, .compute 0, .giveBytes 2]⟩

/-- backends/default/engines/entity_serialization.rs:244-264. -/
def default_serialization_engine_serialize_lwe_circuit_bootstrap_private_functional_packing_keyswitch_keys_u64 : Fn :=
  ⟨[.ref .defaultSerializationEngine, .ref .cbsPfpksk, .resultBuf],
   [.check 2, .check 0, .deref 0, .check 1, .deref 1, .compute 0, .giveBytes 2]⟩

/-- backends/default/engines/entity_serialization.rs:269-283. -/
def default_serialization_engine_serialize_lwe_circuit_bootstrap_private_functional_packing_keyswitch_keys_unchecked_u64 : Fn :=
  ⟨[.ref .defaultSerializationEngine, .ref .cbsPfpksk, .resultBuf],
   [.deref 0, .deref 1, .compute 0, .giveBytes 2]⟩

/-- backends/default/engines/glwe_ciphertext_creation.rs:14-44. -/
def default_engine_create_glwe_ciphertext_view_from_u64 : Fn :=
  ⟨[.ref .defaultEngine, .raw 8, .int, .int, .result .glweView],
   [.check 4, .nullSlot 4, .check 0, .deref 0, .check 1, .deref 1, .compute 0, .give 4]⟩

/-- backends/default/engines/glwe_ciphertext_creation.rs:49-73. -/
def default_engine_create_glwe_ciphertext_view_from_unchecked_u64 : Fn :=
  ⟨[.ref .defaultEngine, .raw 8, .int, .int, .result .glweView],
   [.nullSlot 4, .deref 0, .deref 1, .compute 0, .give 4]⟩

/-- backends/default/engines/glwe_ciphertext_creation.rs:81-111. -/
def default_engine_create_glwe_ciphertext_mut_view_from_u64 : Fn :=
  ⟨[.ref .defaultEngine, .raw 8, .int, .int, .result .glweMutView],
   [.check 4, .nullSlot 4, .check 0, .deref 0, .check 1, .deref 1, .compute 0, .give 4]⟩

/-- backends/default/engines/glwe_ciphertext_creation.rs:116-140. -/
def default_engine_create_glwe_ciphertext_mut_view_from_unchecked_u64 : Fn :=
  ⟨[.ref .defaultEngine, .raw 8, .int, .int, .result .glweMutView],
   [.nullSlot 4, .deref 0, .deref 1, .compute 0, .give 4]⟩

/-- backends/default/engines/glwe_ciphertext_discarding_trivial_encryption.rs:17-41. -/
def default_engine_discard_trivially_encrypt_glwe_ciphertext_u64_view_buffers : Fn :=
  ⟨[.ref .defaultEngine, .ref .glweMutView, .raw 8, .int],
   [.check 0, .deref 0, .check 1, .deref 1, .check 2, .deref 2, .compute 0, .compute 1]⟩

/-- backends/default/engines/glwe_ciphertext_discarding_trivial_encryption.rs:46-63. -/
def default_engine_discard_trivially_encrypt_glwe_ciphertext_unchecked_u64_view_buffers : Fn :=
  ⟨[.ref .defaultEngine, .ref .glweMutView, .raw 8, .int],
   [.deref 0, .deref 1, .deref 2, .compute 0, .compute 1]⟩

/-- backends/default/engines/glwe_ciphertext_discarding_trivial_encryption.rs:68-98. -/
def default_engine_discard_trivially_encrypt_glwe_ciphertext_u64_raw_ptr_buffers : Fn :=
  ⟨[.ref .defaultEngine, .raw 8, .int, .raw 8, .int],
   [.check 0, .deref 0, .check 1, .deref 1, .compute 0, .check 3, .deref 3, .compute 1, .compute 2]⟩

/-- backends/default/engines/glwe_ciphertext_discarding_trivial_encryption.rs:103-125. -/
def default_engine_discard_trivially_encrypt_glwe_ciphertext_unchecked_u64_raw_ptr_buffers : Fn :=
  ⟨[.ref .defaultEngine, .raw 8, .int, .raw 8, .int],
   [.deref 0, .deref 1, .compute 0, .deref 3, .compute 1, .compute 2]⟩

/-- backends/default/engines/glwe_lwe_secret_key_transformation.rs:17-50. -/
def default_engine_transform_glwe_secret_key_to_lwe_secret_key_u64 : Fn :=
  ⟨[.ref .defaultEngine, .consumed .glweSecretKey, .result .lweSecretKey],
   [.check 2, .nullSlot 2, .check 0, .deref 0, .check 1, .load 1, .checkLoaded 1, .take 1, .compute 0, .nullSlot 1, .give 2]⟩

/-- backends/default/engines/glwe_lwe_secret_key_transformation.rs:55-82. -/
def default_engine_transform_glwe_secret_key_to_lwe_secret_key_unchecked_u64 : Fn :=
  ⟨[.ref .defaultEngine, .consumed .glweSecretKey, .result .lweSecretKey],
   [.nullSlot 2, .deref 0, .load 1, .take 1, .compute 0, .nullSlot 1, .give 2]⟩

/-- backends/default/engines/glwe_secret_key_generation.rs:14-37. -/
def default_engine_generate_new_glwe_secret_key_u64 : Fn :=
  ⟨[.ref .defaultEngine, .int, .int, .result .glweSecretKey],
   [.check 3, .nullSlot 3, .check 0, .deref 0, .compute 0, .give 3]⟩

/-- backends/default/engines/glwe_secret_key_generation.rs:42-61. -/
def default_engine_generate_new_glwe_secret_key_unchecked_u64 : Fn :=
  ⟨[.ref .defaultEngine, .int, .int, .result .glweSecretKey],
   [.nullSlot 3, .deref 0, .compute 0, .give 3]⟩

/-- backends/default/engines/lwe_bootstrap_key_creation.rs:14-54. -/
def default_engine_create_lwe_bootstrap_key_mut_view_from_u64 : Fn :=
  ⟨[.ref .defaultEngine, .raw 8, .int, .int, .int, .int, .int, .result .bootstrapKeyMutView],
   [.check 7, .nullSlot 7, .check 0, .deref 0, .check 1, .compute 0, .deref 1, .compute 1, .give 7]⟩

/-- backends/default/engines/lwe_bootstrap_key_creation.rs:59-93. -/
def default_engine_create_lwe_bootstrap_key_mut_view_from_unchecked_u64 : Fn :=
  ⟨[.ref .defaultEngine, .raw 8, .int, .int, .int, .int, .int, .result .bootstrapKeyMutView],
   [.nullSlot 7, .deref 0, .deref 1, .compute 0, .deref 1, .compute 1, .give 7]⟩

/-- backends/default/engines/lwe_bootstrap_key_discarding_conversion.rs:14-30. -/
def default_engine_discard_convert_lwe_bootstrap_key_to_lwe_bootstrap_key_mut_view_u64_view_buffers : Fn :=
  ⟨[.ref .defaultEngine, .ref .bootstrapKey, .ref .bootstrapKeyMutView],
   [.check 0, .deref 0, .check 1, .deref 1, .check 2, .deref 2, .compute 0]⟩

/-- backends/default/engines/lwe_bootstrap_key_discarding_conversion.rs:35-48. -/
def default_engine_discard_convert_lwe_bootstrap_key_to_lwe_bootstrap_key_mut_view_unchecked_u64_view_buffers : Fn :=
  ⟨[.ref .defaultEngine, .ref .bootstrapKey, .ref .bootstrapKeyMutView],
   [.deref 0, .deref 1, .deref 2, .compute 0]⟩

/-- backends/default/engines/lwe_bootstrap_key_discarding_conversion.rs:53-94. -/
def default_engine_discard_convert_lwe_bootstrap_key_to_lwe_bootstrap_key_mut_view_u64_raw_ptr_buffers : Fn :=
  ⟨[.ref .defaultEngine, .ref .bootstrapKey, .raw 8],
   [.check 0, .deref 0, .check 1, .deref 1, .check 2, .compute 0, .compute 1, .compute 2, .compute 3, .compute 4, .compute 5, .deref 2, .compute 6, .compute 7]⟩

/-- backends/default/engines/lwe_bootstrap_key_discarding_conversion.rs:99-134. -/
def default_engine_discard_convert_lwe_bootstrap_key_to_lwe_bootstrap_key_mut_view_unchecked_u64_raw_ptr_buffers : Fn :=
  ⟨[.ref .defaultEngine, .ref .bootstrapKey, .raw 8],
   [.deref 0, .deref 1, .deref 2, .compute 0, .compute 1, .compute 2, .compute 3, .compute 4, .compute 5, .deref 2, .compute 6, .compute 7]⟩

/-- backends/default/engines/lwe_bootstrap_key_generation.rs:14-50. -/
def default_engine_generate_new_lwe_bootstrap_key_u64 : Fn :=
  ⟨[.ref .defaultEngine, .ref .lweSecretKey, .ref .glweSecretKey, .int, .int, .int, .result .bootstrapKey],
   [.check 6, .nullSlot 6, .check 0, .deref 0, .check 1, .deref 1, .check 2, .deref 2, .compute 0, .give 6]⟩

/-- backends/default/engines/lwe_bootstrap_key_generation.rs:55-84. -/
def default_engine_generate_new_lwe_bootstrap_key_unchecked_u64 : Fn :=
  ⟨[.ref .defaultEngine, .ref .lweSecretKey, .ref .glweSecretKey, .int, .int, .int, .result .bootstrapKey],
   [.nullSlot 6, .deref 0, .deref 1, .deref 2, .compute 0, .give 6]⟩

/-- backends/default/engines/lwe_bootstrap_key_generation.rs:93-129. -/
def default_parallel_engine_generate_new_lwe_bootstrap_key_u64 : Fn :=
  ⟨[.ref .defaultParallelEngine, .ref .lweSecretKey, .ref .glweSecretKey, .int, .int, .int, .result .bootstrapKey],
   [.check 6, .nullSlot 6, .check 0, .deref 0, .check 1, .deref 1, .check 2, .deref 2, .compute 0, .give 6]⟩

/-- backends/default/engines/lwe_bootstrap_key_generation.rs:135-164. -/
def default_parallel_engine_generate_new_lwe_bootstrap_key_unchecked_u64 : Fn :=
  ⟨[.ref .defaultParallelEngine, .ref .lweSecretKey, .ref .glweSecretKey, .int, .int, .int, .result .bootstrapKey],
   [.nullSlot 6, .deref 0, .deref 1, .deref 2, .compute 0, .give 6]⟩

/-- backends/default/engines/lwe_ciphertext_cleartext_discarding_multiplication.rs:14-36. -/
def default_engine_discard_mul_lwe_ciphertext_cleartext_u64_view_buffers : Fn :=
  ⟨[.ref .defaultEngine, .ref .lweMutView, .ref .lweView, .int],
   [.check 0, .deref 0, .check 1, .deref 1, .check 2, .deref 2, .compute 0, .compute 1]⟩

/-- backends/default/engines/lwe_ciphertext_cleartext_discarding_multiplication.rs:41-57. -/
def default_engine_discard_mul_lwe_ciphertext_cleartext_unchecked_u64_view_buffers : Fn :=
  ⟨[.ref .defaultEngine, .ref .lweMutView, .ref .lweView, .int],
   [.deref 0, .deref 1, .deref 2, .compute 0, .compute 1]⟩

/-- backends/default/engines/lwe_ciphertext_cleartext_discarding_multiplication.rs:62-99. -/
def default_engine_discard_mul_lwe_ciphertext_cleartext_u64_raw_ptr_buffers : Fn :=
  ⟨[.ref .defaultEngine, .raw 8, .raw 8, .int, .int],
   [.check 0, .deref 0, .compute 0, .check 1, .deref 1, .compute 1, .check 2, .deref 2, .compute 2, .compute 3, .compute 4]⟩

/-- backends/default/engines/lwe_ciphertext_cleartext_discarding_multiplication.rs:104-127. -/
def default_engine_discard_mul_lwe_ciphertext_cleartext_unchecked_u64_raw_ptr_buffers : Fn :=
  ⟨[.ref .defaultEngine, .raw 8, .raw 8, .int, .int],
   [.deref 0, .compute 0, .deref 1, .compute 1, .deref 2, .compute 2, .compute 3, .compute 4]⟩

/-- backends/default/engines/lwe_ciphertext_creation.rs:14-41. -/
def default_engine_create_lwe_ciphertext_view_from_u64 : Fn :=
  ⟨[.ref .defaultEngine, .raw 8, .int, .result .lweView],
   [.check 3, .nullSlot 3, .check 0, .deref 0, .check 1, .deref 1, .compute 0, .give 3]⟩

/-- backends/default/engines/lwe_ciphertext_creation.rs:46-66. -/
def default_engine_create_lwe_ciphertext_view_from_unchecked_u64 : Fn :=
  ⟨[.ref .defaultEngine, .raw 8, .int, .result .lweView],
   [.nullSlot 3, .deref 0, .deref 1, .compute 0, .give 3]⟩

/-- backends/default/engines/lwe_ciphertext_creation.rs:74-101. -/
def default_engine_create_lwe_ciphertext_mut_view_from_u64 : Fn :=
  ⟨[.ref .defaultEngine, .raw 8, .int, .result .lweMutView],
   [.check 3, .nullSlot 3, .check 0, .deref 0, .check 1, .deref 1, .compute 0, .give 3]⟩

/-- backends/default/engines/lwe_ciphertext_creation.rs:106-126. -/
def default_engine_create_lwe_ciphertext_mut_view_from_unchecked_u64 : Fn :=
  ⟨[.ref .defaultEngine, .raw 8, .int, .result .lweMutView],
   [.nullSlot 3, .deref 0, .deref 1, .compute 0, .give 3]⟩

/-- backends/default/engines/lwe_ciphertext_decryption.rs:15-39. -/
def default_engine_decrypt_lwe_ciphertext_u64_view_buffers : Fn :=
  ⟨[.ref .defaultEngine, .ref .lweSecretKey, .ref .lweView, .raw 8],
   [.check 3, .check 0, .deref 0, .check 1, .deref 1, .check 2, .deref 2, .compute 0, .compute 1, .deref 3]⟩

/-- backends/default/engines/lwe_ciphertext_decryption.rs:44-60. -/
def default_engine_decrypt_lwe_ciphertext_unchecked_u64_view_buffers : Fn :=
  ⟨[.ref .defaultEngine, .ref .lweSecretKey, .ref .lweView, .raw 8],
   [.deref 0, .deref 1, .deref 2, .compute 0, .compute 1, .deref 3]⟩

/-- backends/default/engines/lwe_ciphertext_decryption.rs:65-96. -/
def default_engine_decrypt_lwe_ciphertext_u64_raw_ptr_buffers : Fn :=
  ⟨[.ref .defaultEngine, .ref .lweSecretKey, .raw 8, .raw 8],
   [.check 3, .check 0, .deref 0, .check 1, .deref 1, .compute 0, .check 2, .deref 2, .compute 1, .compute 2, .compute 3, .deref 3]⟩

/-- backends/default/engines/lwe_ciphertext_decryption.rs:101-120. -/
def default_engine_decrypt_lwe_ciphertext_unchecked_u64_raw_ptr_buffers : Fn :=
  ⟨[.ref .defaultEngine, .ref .lweSecretKey, .raw 8, .raw 8],
   [.deref 0, .deref 1, .compute 0, .deref 2, .compute 1, .compute 2, .compute 3, .deref 3]⟩

/-- backends/default/engines/lwe_ciphertext_discarding_addition.rs:14-32. -/
def default_engine_discard_add_lwe_ciphertext_u64_view_buffers : Fn :=
  ⟨[.ref .defaultEngine, .ref .lweMutView, .ref .lweView, .ref .lweView],
   [.check 0, .deref 0, .check 1, .deref 1, .check 2, .deref 2, .check 3, .deref 3, .compute 0]⟩

/-- backends/default/engines/lwe_ciphertext_discarding_addition.rs:37-52. -/
def default_engine_discard_add_lwe_ciphertext_unchecked_u64_view_buffers : Fn :=
  ⟨[.ref .defaultEngine, .ref .lweMutView, .ref .lweView, .ref .lweView],
   [.deref 0, .deref 1, .deref 2, .deref 3, .compute 0]⟩

/-- backends/default/engines/lwe_ciphertext_discarding_addition.rs:57-96. -/
def default_engine_discard_add_lwe_ciphertext_u64_raw_ptr_buffers : Fn :=
  ⟨[.ref .defaultEngine, .raw 8, .raw 8, .raw 8, .int],
   [.check 0, .deref 0, .compute 0, .check 1, .deref 1, .compute 1, .check 2, .deref 2, .compute 2, .check 3, .deref 3, .compute 3, .compute 4]⟩

/-- backends/default/engines/lwe_ciphertext_discarding_addition.rs:101-125. -/
def default_engine_discard_add_lwe_ciphertext_unchecked_u64_raw_ptr_buffers : Fn :=
  ⟨[.ref .defaultEngine, .raw 8, .raw 8, .raw 8, .int],
   [.deref 0, .compute 0, .deref 1, .compute 1, .deref 2, .compute 2, .deref 3, .compute 3, .compute 4]⟩

/-- backends/default/engines/lwe_ciphertext_discarding_encryption.rs:14-37. -/
def default_engine_discard_encrypt_lwe_ciphertext_u64_view_buffers : Fn :=
  ⟨[.ref .defaultEngine, .ref .lweSecretKey, .ref .lweMutView, .int, .int],
   [.check 0, .deref 0, .check 1, .deref 1, .check 2, .deref 2, .compute 0, .compute 1]⟩

/-- backends/default/engines/lwe_ciphertext_discarding_encryption.rs:42-64. -/
def default_engine_discard_encrypt_lwe_ciphertext_unchecked_u64_view_buffers : Fn :=
  ⟨[.ref .defaultEngine, .ref .lweSecretKey, .ref .lweMutView, .int, .int],
   [.deref 0, .deref 1, .deref 2, .compute 0, .compute 1]⟩

/-- backends/default/engines/lwe_ciphertext_discarding_encryption.rs:68-99. -/
def default_engine_discard_encrypt_lwe_ciphertext_u64_raw_ptr_buffers : Fn :=
  ⟨[.ref .defaultEngine, .ref .lweSecretKey, .raw 8, .int, .int],
   [.check 0, .deref 0, .check 1, .deref 1, .compute 0, .check 2, .deref 2, .compute 1, .compute 2, .compute 3]⟩

/-- backends/default/engines/lwe_ciphertext_discarding_encryption.rs:104-130. -/
def default_engine_discard_encrypt_lwe_ciphertext_unchecked_u64_raw_ptr_buffers : Fn :=
  ⟨[.ref .defaultEngine, .ref .lweSecretKey, .raw 8, .int, .int],
   [.deref 0, .deref 1, .compute 0, .deref 2, .compute 1, .compute 2, .compute 3]⟩

/-- backends/default/engines/lwe_ciphertext_discarding_keyswitch.rs:14-33. -/
def default_engine_discard_keyswitch_lwe_ciphertext_u64_view_buffers : Fn :=
  ⟨[.ref .defaultEngine, .ref .keyswitchKey, .ref .lweMutView, .ref .lweView],
   [.check 0, .deref 0, .check 1, .deref 1, .check 2, .deref 2, .check 3, .deref 3, .compute 0]⟩

/-- backends/default/engines/lwe_ciphertext_discarding_keyswitch.rs:38-54. -/
def default_engine_discard_keyswitch_lwe_ciphertext_unchecked_u64_view_buffers : Fn :=
  ⟨[.ref .defaultEngine, .ref .keyswitchKey, .ref .lweMutView, .ref .lweView],
   [.deref 0, .deref 1, .deref 2, .deref 3, .compute 0]⟩

/-- backends/default/engines/lwe_ciphertext_discarding_keyswitch.rs:58-91. -/
def default_engine_discard_keyswitch_lwe_ciphertext_u64_raw_ptr_buffers : Fn :=
  ⟨[.ref .defaultEngine, .ref .keyswitchKey, .raw 8, .raw 8],
   [.check 0, .deref 0, .check 1, .deref 1, .compute 0, .compute 1, .check 2, .deref 2, .compute 2, .check 3, .deref 3, .compute 3, .compute 4]⟩

/-- backends/default/engines/lwe_ciphertext_discarding_keyswitch.rs:96-118. -/
def default_engine_discard_keyswitch_lwe_ciphertext_unchecked_u64_raw_ptr_buffers : Fn :=
  ⟨[.ref .defaultEngine, .ref .keyswitchKey, .raw 8, .raw 8],
   [.deref 0, .deref 1, .compute 0, .compute 1, .deref 2, .compute 2, .deref 3, .compute 3, .compute 4]⟩

/-- backends/default/engines/lwe_ciphertext_discarding_opposite.rs:15-31. -/
def default_engine_discard_opp_lwe_ciphertext_u64_view_buffers : Fn :=
  ⟨[.ref .defaultEngine, .ref .lweMutView, .ref .lweView],
   [.check 0, .deref 0, .check 1, .deref 1, .check 2, .deref 2, .compute 0]⟩

/-- backends/default/engines/lwe_ciphertext_discarding_opposite.rs:36-49. -/
def default_engine_discard_opp_lwe_ciphertext_unchecked_u64_view_buffers : Fn :=
  ⟨[.ref .defaultEngine, .ref .lweMutView, .ref .lweView],
   [.deref 0, .deref 1, .deref 2, .compute 0]⟩

/-- backends/default/engines/lwe_ciphertext_discarding_opposite.rs:53-84. -/
def default_engine_discard_opp_lwe_ciphertext_u64_raw_ptr_buffers : Fn :=
  ⟨[.ref .defaultEngine, .raw 8, .raw 8, .int],
   [.check 0, .deref 0, .compute 0, .check 1, .deref 1, .compute 1, .check 2, .deref 2, .compute 2, .compute 3]⟩

/-- backends/default/engines/lwe_ciphertext_discarding_opposite.rs:89-109. -/
def default_engine_discard_opp_lwe_ciphertext_unchecked_u64_raw_ptr_buffers : Fn :=
  ⟨[.ref .defaultEngine, .raw 8, .raw 8, .int],
   [.check 0, .deref 0, .compute 0, .deref 1, .compute 1, .deref 2, .compute 2, .compute 3]⟩

/-- backends/default/engines/lwe_ciphertext_plaintext_discarding_addition.rs:15-37. -/
def default_engine_discard_add_lwe_ciphertext_plaintext_u64_view_buffers : Fn :=
  ⟨[.ref .defaultEngine, .ref .lweMutView, .ref .lweView, .int],
   [.check 0, .deref 0, .check 1, .deref 1, .check 2, .deref 2, .compute 0, .compute 1]⟩

/-- backends/default/engines/lwe_ciphertext_plaintext_discarding_addition.rs:42-58. -/
def default_engine_discard_add_lwe_ciphertext_plaintext_unchecked_u64_view_buffers : Fn :=
  ⟨[.ref .defaultEngine, .ref .lweMutView, .ref .lweView, .int],
   [.deref 0, .deref 1, .deref 2, .compute 0, .compute 1]⟩

/-- backends/default/engines/lwe_ciphertext_plaintext_discarding_addition.rs:63-100. -/
def default_engine_discard_add_lwe_ciphertext_plaintext_u64_raw_ptr_buffers : Fn :=
  ⟨[.ref .defaultEngine, .raw 8, .raw 8, .int, .int],
   [.check 0, .deref 0, .compute 0, .check 1, .deref 1, .compute 1, .check 2, .deref 2, .compute 2, .compute 3, .compute 4]⟩

/-- backends/default/engines/lwe_ciphertext_plaintext_discarding_addition.rs:105-128. -/
def default_engine_discard_add_lwe_ciphertext_plaintext_unchecked_u64_raw_ptr_buffers : Fn :=
  ⟨[.ref .defaultEngine, .raw 8, .raw 8, .int, .int],
   [.check 0, .deref 0, .compute 0, .deref 1, .compute 1, .deref 2, .compute 2, .compute 3, .compute 4]⟩

/-- backends/default/engines/lwe_ciphertext_vector_creation.rs:14-42. -/
def default_engine_create_lwe_ciphertext_vector_view_from_u64 : Fn :=
  ⟨[.ref .defaultEngine, .raw 8, .int, .int, .result .lweVectorView],
   [.check 4, .nullSlot 4, .check 0, .deref 0, .check 1, .compute 0, .deref 1, .compute 1, .give 4]⟩

/-- backends/default/engines/lwe_ciphertext_vector_creation.rs:47-69. -/
def default_engine_create_lwe_ciphertext_vector_view_from_unchecked_u64 : Fn :=
  ⟨[.ref .defaultEngine, .raw 8, .int, .int, .result .lweVectorView],
   [.nullSlot 4, .deref 0, .compute 0, .deref 1, .compute 1, .give 4]⟩

/-- backends/default/engines/lwe_ciphertext_vector_creation.rs:77-105. -/
def default_engine_create_lwe_ciphertext_vector_mut_view_from_u64 : Fn :=
  ⟨[.ref .defaultEngine, .raw 8, .int, .int, .result .lweVectorMutView],
   [.check 4, .nullSlot 4, .check 0, .deref 0, .check 1, .compute 0, .deref 1, .compute 1, .give 4]⟩

/-- backends/default/engines/lwe_ciphertext_vector_creation.rs:110-132. -/
def default_engine_create_lwe_ciphertext_vector_mut_view_from_unchecked_u64 : Fn :=
  ⟨[.ref .defaultEngine, .raw 8, .int, .int, .result .lweVectorMutView],
   [.nullSlot 4, .deref 0, .compute 0, .deref 1, .compute 1, .give 4]⟩

/-- backends/default/engines/lwe_ciphertext_vector_decryption.rs:15-45. -/
def default_engine_decrypt_lwe_ciphertext_vector_u64_view_buffers : Fn :=
  ⟨[.ref .defaultEngine, .ref .lweSecretKey, .ref .lweVectorView, .raw 8],
   [.check 3, .check 0, .deref 0, .check 1, .deref 1, .check 2, .deref 2, .compute 0, .compute 1, .deref 3, .compute 2]⟩

/-- backends/default/engines/lwe_ciphertext_vector_decryption.rs:50-73. -/
def default_engine_decrypt_lwe_ciphertext_vector_unchecked_u64_view_buffers : Fn :=
  ⟨[.ref .defaultEngine, .ref .lweSecretKey, .ref .lweVectorView, .raw 8],
   [.deref 0, .deref 1, .deref 2, .compute 0, .compute 1, .deref 3, .compute 2]⟩

/-- backends/default/engines/lwe_ciphertext_vector_decryption.rs:78-114. -/
def default_engine_decrypt_lwe_ciphertext_vector_u64_raw_ptr_buffers : Fn :=
  ⟨[.ref .defaultEngine, .ref .lweSecretKey, .raw 8, .raw 8, .int],
   [.check 3, .check 0, .deref 0, .check 1, .deref 1, .compute 0, .check 2, .compute 1, .deref 2, .compute 2, .compute 3, .compute 4, .deref 3, .compute 5]⟩

/-- backends/default/engines/lwe_ciphertext_vector_decryption.rs:119-146. -/
def default_engine_decrypt_lwe_ciphertext_vector_unchecked_u64_raw_ptr_buffers : Fn :=
  ⟨[.ref .defaultEngine, .ref .lweSecretKey, .raw 8, .raw 8, .int],
   [.deref 0, .deref 1, .compute 0, .compute 1, .deref 2, .compute 2, .compute 3, .compute 4, .deref 3, .compute 5]⟩

/-- backends/default/engines/lwe_circuit_bootstrap_private_functional_packing_keyswitch_keys_generation.rs:14-49. -/
def default_engine_generate_new_lwe_circuit_bootstrap_private_functional_packing_keyswitch_keys_u64 : Fn :=
  ⟨[.ref .defaultEngine, .ref .lweSecretKey, .ref .glweSecretKey, .int, .int, .int, .result .cbsPfpksk],
   [.check 6, .nullSlot 6, .check 0, .deref 0, .check 1, .deref 1, .check 2, .deref 2, .compute 0, .give 6]⟩

/-- backends/default/engines/lwe_circuit_bootstrap_private_functional_packing_keyswitch_keys_generation.rs:54-85. -/
def default_engine_generate_new_lwe_circuit_bootstrap_private_functional_packing_keyswitch_keys_unchecked_u64 : Fn :=
  ⟨[.ref .defaultEngine, .ref .lweSecretKey, .ref .glweSecretKey, .int, .int, .int, .result .cbsPfpksk],
   [.nullSlot 6, .deref 0, .deref 1, .deref 2, .compute 0, .give 6]⟩

/-- backends/default/engines/lwe_circuit_bootstrap_private_functional_packing_keyswitch_keys_generation.rs:93-128. -/
def default_parallel_engine_generate_new_lwe_circuit_bootstrap_private_functional_packing_keyswitch_keys_u64 : Fn :=
  ⟨[.ref .defaultParallelEngine, .ref .lweSecretKey, .ref .glweSecretKey, .int, .int, .int, .result .cbsPfpksk],
   [.check 6, .nullSlot 6, .check 0, .deref 0, .check 1, .deref 1, .check 2, .deref 2, .compute 0, .give 6]⟩

/-- backends/default/engines/lwe_circuit_bootstrap_private_functional_packing_keyswitch_keys_generation.rs:133-164. -/
def default_parallel_engine_generate_new_lwe_circuit_bootstrap_private_functional_packing_keyswitch_keys_unchecked_u64 : Fn :=
  ⟨[.ref .defaultParallelEngine, .ref .lweSecretKey, .ref .glweSecretKey, .int, .int, .int, .result .cbsPfpksk],
   [.nullSlot 6, .deref 0, .deref 1, .deref 2, .compute 0, .give 6]⟩

/-- backends/default/engines/lwe_glwe_secret_key_transformation.rs:17-56. -/
def default_engine_transform_lwe_secret_key_to_glwe_secret_key_u64 : Fn :=
  ⟨[.ref .defaultEngine, .consumed .lweSecretKey, .int, .result .glweSecretKey],
   [.check 3, .nullSlot 3, .check 0, .deref 0, .check 1, .load 1, .checkLoaded 1, .take 1, .compute 0, .nullSlot 1, .give 3]⟩

/-- backends/default/engines/lwe_glwe_secret_key_transformation.rs:61-92. -/
def default_engine_transform_lwe_secret_key_to_glwe_secret_key_unchecked_u64 : Fn :=
  ⟨[.ref .defaultEngine, .consumed .lweSecretKey, .int, .result .glweSecretKey],
   [.nullSlot 3, .deref 0, .load 1, .take 1, .compute 0, .nullSlot 1, .give 3]⟩

/-- backends/default/engines/lwe_keyswitch_key_creation.rs:14-54. -/
def default_engine_create_lwe_keyswitch_key_mut_view_from_u64 : Fn :=
  ⟨[.ref .defaultEngine, .raw 8, .int, .int, .int, .int, .result .keyswitchKeyMutView],
   [.check 6, .nullSlot 6, .check 0, .deref 0, .check 1, .compute 0, .deref 1, .compute 1, .give 6]⟩

/-- backends/default/engines/lwe_keyswitch_key_creation.rs:59-93. -/
def default_engine_create_lwe_keyswitch_key_mut_view_from_unchecked_u64 : Fn :=
  ⟨[.ref .defaultEngine, .raw 8, .int, .int, .int, .int, .result .keyswitchKeyMutView],
   [.nullSlot 6, .deref 0, .deref 1, .compute 0, .deref 1, .compute 1, .give 6]⟩

/-- backends/default/engines/lwe_keyswitch_key_discarding_conversion.rs:14-30. -/
def default_engine_discard_convert_lwe_keyswitch_key_to_lwe_keyswitch_key_mut_view_u64_view_buffers : Fn :=
  ⟨[.ref .defaultEngine, .ref .keyswitchKey, .ref .keyswitchKeyMutView],
   [.check 0, .deref 0, .check 1, .deref 1, .check 2, .deref 2, .compute 0]⟩

/-- backends/default/engines/lwe_keyswitch_key_discarding_conversion.rs:35-48. -/
def default_engine_discard_convert_lwe_keyswitch_key_to_lwe_keyswitch_key_mut_view_unchecked_u64_view_buffers : Fn :=
  ⟨[.ref .defaultEngine, .ref .keyswitchKey, .ref .keyswitchKeyMutView],
   [.deref 0, .deref 1, .deref 2, .compute 0]⟩

/-- backends/default/engines/lwe_keyswitch_key_discarding_conversion.rs:53-90. -/
def default_engine_discard_convert_lwe_keyswitch_key_to_lwe_keyswitch_key_mut_view_u64_raw_ptr_buffers : Fn :=
  ⟨[.ref .defaultEngine, .ref .keyswitchKey, .raw 8],
   [.check 0, .deref 0, .check 1, .deref 1, .check 2, .compute 0, .compute 1, .compute 2, .compute 3, .compute 4, .deref 2, .compute 5, .compute 6]⟩

/-- backends/default/engines/lwe_keyswitch_key_discarding_conversion.rs:95-126. -/
def default_engine_discard_convert_lwe_keyswitch_key_to_lwe_keyswitch_key_mut_view_unchecked_u64_raw_ptr_buffers : Fn :=
  ⟨[.ref .defaultEngine, .ref .keyswitchKey, .raw 8],
   [.deref 0, .deref 1, .deref 2, .compute 0, .compute 1, .compute 2, .compute 3, .compute 4, .deref 2, .compute 5, .compute 6]⟩

/-- backends/default/engines/lwe_keyswitch_key_generation.rs:14-50. -/
def default_engine_generate_new_lwe_keyswitch_key_u64 : Fn :=
  ⟨[.ref .defaultEngine, .ref .lweSecretKey, .ref .lweSecretKey, .int, .int, .int, .result .keyswitchKey],
   [.check 6, .nullSlot 6, .check 0, .deref 0, .check 1, .deref 1, .check 2, .deref 2, .compute 0, .give 6]⟩

/-- backends/default/engines/lwe_keyswitch_key_generation.rs:55-84. -/
def default_engine_generate_new_lwe_keyswitch_key_unchecked_u64 : Fn :=
  ⟨[.ref .defaultEngine, .ref .lweSecretKey, .ref .lweSecretKey, .int, .int, .int, .result .keyswitchKey],
   [.nullSlot 6, .deref 0, .deref 1, .deref 2, .compute 0, .give 6]⟩

/-- backends/default/engines/lwe_secret_key_generation.rs:14-36. -/
def default_engine_generate_new_lwe_secret_key_u64 : Fn :=
  ⟨[.ref .defaultEngine, .int, .result .lweSecretKey],
   [.check 2, .nullSlot 2, .check 0, .deref 0, .compute 0, .give 2]⟩

/-- backends/default/engines/lwe_secret_key_generation.rs:41-57. -/
def default_engine_generate_new_lwe_secret_key_unchecked_u64 : Fn :=
  ⟨[.ref .defaultEngine, .int, .result .lweSecretKey],
   [.nullSlot 2, .deref 0, .compute 0, .give 2]⟩

/-- backends/default/engines/lwe_seeded_bootstrap_key_generation.rs:14-50. -/
def default_engine_generate_new_lwe_seeded_bootstrap_key_u64 : Fn :=
  ⟨[.ref .defaultEngine, .ref .lweSecretKey, .ref .glweSecretKey, .int, .int, .int, .result .seededBootstrapKey],
   [.check 6, .nullSlot 6, .check 0, .deref 0, .check 1, .deref 1, .check 2, .deref 2, .compute 0, .give 6]⟩

/-- backends/default/engines/lwe_seeded_bootstrap_key_generation.rs:55-84. -/
def default_engine_generate_new_lwe_seeded_bootstrap_key_unchecked_u64 : Fn :=
  ⟨[.ref .defaultEngine, .ref .lweSecretKey, .ref .glweSecretKey, .int, .int, .int, .result .seededBootstrapKey],
   [.nullSlot 6, .deref 0, .deref 1, .deref 2, .compute 0, .give 6]⟩

/-- backends/default/engines/lwe_seeded_bootstrap_key_generation.rs:93-129. -/
def default_parallel_engine_generate_new_lwe_seeded_bootstrap_key_u64 : Fn :=
  ⟨[.ref .defaultParallelEngine, .ref .lweSecretKey, .ref .glweSecretKey, .int, .int, .int, .result .seededBootstrapKey],
   [.check 6, .nullSlot 6, .check 0, .deref 0, .check 1, .deref 1, .check 2, .deref 2, .compute 0, .give 6]⟩

/-- backends/default/engines/lwe_seeded_bootstrap_key_generation.rs:135-164. -/
def default_parallel_engine_generate_new_lwe_seeded_bootstrap_key_unchecked_u64 : Fn :=
  ⟨[.ref .defaultParallelEngine, .ref .lweSecretKey, .ref .glweSecretKey, .int, .int, .int, .result .seededBootstrapKey],
   [.nullSlot 6, .deref 0, .deref 1, .deref 2, .compute 0, .give 6]⟩

/-- backends/default/engines/lwe_seeded_bootstrap_key_to_lwe_bootstrap_key_transformation.rs:17-52. -/
def default_engine_transform_lwe_seeded_bootstrap_key_to_lwe_bootstrap_key_u64 : Fn :=
  ⟨[.ref .defaultEngine, .consumed .seededBootstrapKey, .result .bootstrapKey],
   [.check 2, .nullSlot 2, .check 0, .deref 0, .check 1, .load 1, .checkLoaded 1, .take 1, .compute 0, .nullSlot 1, .give 2]⟩

/-- backends/default/engines/lwe_seeded_bootstrap_key_to_lwe_bootstrap_key_transformation.rs:57-85. -/
def default_engine_transform_lwe_seeded_bootstrap_key_to_lwe_bootstrap_key_unchecked_u64 : Fn :=
  ⟨[.ref .defaultEngine, .consumed .seededBootstrapKey, .result .bootstrapKey],
   [.nullSlot 2, .deref 0, .load 1, .take 1, .compute 0, .nullSlot 1, .give 2]⟩

/-- backends/default/engines/lwe_seeded_keyswitch_key_generation.rs:14-50. -/
def default_engine_generate_new_lwe_seeded_keyswitch_key_u64 : Fn :=
  ⟨[.ref .defaultEngine, .ref .lweSecretKey, .ref .lweSecretKey, .int, .int, .int, .result .seededKeyswitchKey],
   [.check 6, .nullSlot 6, .check 0, .deref 0, .check 1, .deref 1, .check 2, .deref 2, .compute 0, .give 6]⟩

/-- backends/default/engines/lwe_seeded_keyswitch_key_generation.rs:55-85. -/
def default_engine_generate_new_lwe_seeded_keyswitch_key_unchecked_u64 : Fn :=
  ⟨[.ref .defaultEngine, .ref .lweSecretKey, .ref .lweSecretKey, .int, .int, .int, .result .seededKeyswitchKey],
   [.nullSlot 6, .deref 0, .deref 1, .deref 2, .compute 0, .give 6]⟩

/-- backends/default/engines/lwe_seeded_keyswitch_key_to_lwe_keyswitch_key_transformation.rs:17-52. -/
def default_engine_transform_lwe_seeded_keyswitch_key_to_lwe_keyswitch_key_u64 : Fn :=
  ⟨[.ref .defaultEngine, .consumed .seededKeyswitchKey, .result .keyswitchKey],
   [.check 2, .nullSlot 2, .check 0, .deref 0, .check 1, .load 1, .checkLoaded 1, .take 1, .compute 0, .nullSlot 1, .give 2]⟩

/-- backends/default/engines/lwe_seeded_keyswitch_key_to_lwe_keyswitch_key_transformation.rs:57-85. -/
def default_engine_transform_lwe_seeded_keyswitch_key_to_lwe_keyswitch_key_unchecked_u64 : Fn :=
  ⟨[.ref .defaultEngine, .consumed .seededKeyswitchKey, .result .keyswitchKey],
   [.nullSlot 2, .deref 0, .load 1, .take 1, .compute 0, .nullSlot 1, .give 2]⟩

/-- backends/default/engines/mod.rs:15-33. -/
def new_default_engine : Fn :=
  ⟨[.ref .seederBuilder, .result .defaultEngine],
   [.check 1, .nullSlot 1, .check 0, .deref 0, .compute 0, .compute 1, .give 1]⟩

/-- backends/default/engines/mod.rs:37-50. -/
def new_default_engine_unchecked : Fn :=
  ⟨[.ref .seederBuilder, .result .defaultEngine],
   [.nullSlot 1, .deref 0, .compute 0, .compute 1, .give 1]⟩

/-- backends/default/engines/mod.rs:56-63. -/
def destroy_default_engine : Fn :=
  ⟨[.destroyed .defaultEngine],
   [.check 0, .free 0]⟩

/-- backends/default/engines/mod.rs:67-72. -/
def destroy_default_engine_unchecked : Fn :=
  ⟨[.destroyed .defaultEngine],
   [.free 0]⟩

/-- backends/default/engines/mod.rs:81-100. -/
def new_default_parallel_engine : Fn :=
  ⟨[.ref .seederBuilder, .result .defaultParallelEngine],
   [.check 1, .nullSlot 1, .check 0, .deref 0, .compute 0, .compute 1, .give 1]⟩

/-- backends/default/engines/mod.rs:106-120. -/
def new_default_parallel_engine_unchecked : Fn :=
  ⟨[.ref .seederBuilder, .result .defaultParallelEngine],
   [.nullSlot 1, .deref 0, .compute 0, .compute 1, .give 1]⟩

/-- backends/default/engines/mod.rs:127-136. -/
def destroy_default_parallel_engine : Fn :=
  ⟨[.destroyed .defaultParallelEngine],
   [.check 0, .free 0]⟩

/-- backends/default/engines/mod.rs:142-149. -/
def destroy_default_parallel_engine_unchecked : Fn :=
  ⟨[.destroyed .defaultParallelEngine],
   [.free 0]⟩

/-- backends/default/engines/mod.rs:156-170. -/
def new_default_serialization_engine : Fn :=
  ⟨[.result .defaultSerializationEngine],
   [.check 0, .nullSlot 0, .compute 0, .give 0]⟩

/-- backends/default/engines/mod.rs:176-188. -/
def new_default_serialization_engine_unchecked : Fn :=
  ⟨[.result .defaultSerializationEngine],
   [.nullSlot 0, .compute 0, .give 0]⟩

/-- backends/default/engines/mod.rs:195-204. -/
def destroy_default_serialization_engine : Fn :=
  ⟨[.destroyed .defaultSerializationEngine],
   [.check 0, .free 0]⟩

/-- backends/default/engines/mod.rs:210-217. -/
def destroy_default_serialization_engine_unchecked : Fn :=
  ⟨[.destroyed .defaultSerializationEngine],
   [.free 0]⟩

/-- backends/default/entities/glwe_secret_key.rs:12-29. -/
def clone_glwe_secret_key_u64 : Fn :=
  ⟨[.ref .glweSecretKey, .result .glweSecretKey],
   [.check 1, .nullSlot 1, .check 0, .deref 0, .compute 0, .give 1]⟩

/-- backends/default/entities/glwe_secret_key.rs:34-49. -/
def clone_glwe_secret_key_unchecked_u64 : Fn :=
  ⟨[.ref .glweSecretKey, .result .glweSecretKey],
   [.nullSlot 1, .deref 0, .compute 0, .give 1]⟩

/-- backends/default/entities/lwe_secret_key.rs:12-29. -/
def clone_lwe_secret_key_u64 : Fn :=
  ⟨[.ref .lweSecretKey, .result .lweSecretKey],
   [.check 1, .nullSlot 1, .check 0, .deref 0, .compute 0, .give 1]⟩

/-- backends/default/entities/lwe_secret_key.rs:34-49. -/
def clone_lwe_secret_key_unchecked_u64 : Fn :=
  ⟨[.ref .lweSecretKey, .result .lweSecretKey],
   [.nullSlot 1, .deref 0, .compute 0, .give 1]⟩

/-- backends/fft/engines/destroy.rs:11-20. -/
def destroy_fft_fourier_lwe_bootstrap_key_u64 : Fn :=
  ⟨[.destroyed .fourierBootstrapKey],
   [.check 0, .free 0]⟩

/-- backends/fft/engines/destroy.rs:25-32. -/
def destroy_fft_fourier_lwe_bootstrap_key_unchecked_u64 : Fn :=
  ⟨[.destroyed .fourierBootstrapKey],
   [.free 0]⟩

/-- backends/fft/engines/entity_deserialization.rs:17-38. -/
def fft_serialization_engine_deserialize_fft_fourier_lwe_bootstrap_key_u64 : Fn :=
  ⟨[.ref .fftSerializationEngine, .view, .result .fourierBootstrapKey],
   [.check 2, .nullSlot 2, .check 0, .deref 0, .deref 1, .compute 0, .give 2]⟩

/-- backends/fft/engines/entity_deserialization.rs:43-60. -/
def fft_serialization_engine_deserialize_fft_fourier_lwe_bootstrap_key_unchecked_u64 : Fn :=
  ⟨[.ref .fftSerializationEngine, .view, .result .fourierBootstrapKey],
   [.nullSlot 2, .deref 0, .deref 1, .compute 0, .give 2]⟩

/-- backends/fft/engines/entity_serialization.rs:17-36. -/
def fft_serialization_engine_serialize_fft_fourier_lwe_bootstrap_key_u64 : Fn :=
  ⟨[.ref .fftSerializationEngine, .ref .fourierBootstrapKey, .resultBuf],
   [.check 2, .check 0, .deref 0, .check 1, .deref 1, .compute 0, .giveBytes 2]⟩

/-- backends/fft/engines/entity_serialization.rs:41-54. -/
def fft_serialization_engine_serialize_fft_fourier_lwe_bootstrap_key_unchecked_u64 : Fn :=
  ⟨[.ref .fftSerializationEngine, .ref .fourierBootstrapKey, .resultBuf],
   [.deref 0, .deref 1, .compute 0, .giveBytes 2]⟩

/-- backends/fft/engines/lwe_bootstrap_key_conversion.rs:14-39. -/
def fft_engine_convert_lwe_bootstrap_key_to_fft_fourier_lwe_bootstrap_key_u64 : Fn :=
  ⟨[.ref .fftEngine, .ref .bootstrapKey, .result .fourierBootstrapKey],
   [.check 2, .nullSlot 2, .check 0, .deref 0, .check 1, .deref 1, .compute 0, .give 2]⟩

/-- backends/fft/engines/lwe_bootstrap_key_conversion.rs:44-62. -/
def fft_engine_convert_lwe_bootstrap_key_to_fft_fourier_lwe_bootstrap_key_unchecked_u64 : Fn :=
  ⟨[.ref .fftEngine, .ref .bootstrapKey, .result .fourierBootstrapKey],
   [.nullSlot 2, .deref 0, .deref 1, .compute 0, .give 2]⟩

/-- backends/fft/engines/lwe_ciphertext_discarding_bit_extraction.rs:14-44. -/
def fft_engine_lwe_ciphertext_discarding_bit_extraction_u64_view_buffers : Fn :=
  ⟨[.ref .fftEngine, .ref .fourierBootstrapKey, .ref .keyswitchKey, .ref .lweVectorMutView, .ref .lweView, .int, .int],
   [.check 0, .deref 0, .check 1, .deref 1, .check 2, .deref 2, .check 3, .deref 3, .check 4, .deref 4, .compute 0]⟩

/-- backends/fft/engines/lwe_ciphertext_discarding_bit_extraction.rs:49-76. -/
def fft_engine_lwe_ciphertext_discarding_bit_extraction_unchecked_u64_view_buffers : Fn :=
  ⟨[.ref .fftEngine, .ref .fourierBootstrapKey, .ref .keyswitchKey, .ref .lweVectorMutView, .ref .lweView, .int, .int],
   [.deref 0, .deref 1, .deref 2, .deref 3, .deref 4, .compute 0]⟩

/-- backends/fft/engines/lwe_ciphertext_discarding_bit_extraction.rs:81-129. -/
def fft_engine_lwe_ciphertext_discarding_bit_extraction_u64_raw_ptr_buffers : Fn :=
  ⟨[.ref .fftEngine, .ref .defaultEngine, .ref .fourierBootstrapKey, .ref .keyswitchKey, .raw 8, .raw 8, .int, .int],
   [.check 0, .deref 0, .check 1, .deref 1, .check 2, .deref 2, .check 3, .deref 3, .compute 0, .compute 1, .compute 2, .check 4, .compute 3, .deref 4, .compute 4, .check 5, .deref 5, .compute 5, .compute 6]⟩

/-- backends/fft/engines/lwe_ciphertext_discarding_bit_extraction.rs:134-172. -/
def fft_engine_lwe_ciphertext_discarding_bit_extraction_unchecked_u64_raw_ptr_buffers : Fn :=
  ⟨[.ref .fftEngine, .ref .defaultEngine, .ref .fourierBootstrapKey, .ref .keyswitchKey, .raw 8, .raw 8, .int, .int],
   [.deref 0, .deref 1, .deref 2, .deref 3, .compute 0, .compute 1, .compute 2, .compute 3, .deref 4, .compute 4, .deref 5, .compute 5, .compute 6]⟩

/-- backends/fft/engines/lwe_ciphertext_discarding_bootstrap.rs:14-36. -/
def fft_engine_lwe_ciphertext_discarding_bootstrap_u64_view_buffers : Fn :=
  ⟨[.ref .fftEngine, .ref .fourierBootstrapKey, .ref .lweMutView, .ref .lweView, .ref .glweView],
   [.check 0, .deref 0, .check 1, .deref 1, .check 2, .deref 2, .check 3, .deref 3, .check 4, .deref 4, .compute 0]⟩

/-- backends/fft/engines/lwe_ciphertext_discarding_bootstrap.rs:41-65. -/
def fft_engine_lwe_ciphertext_discarding_bootstrap_unchecked_u64_view_buffers : Fn :=
  ⟨[.ref .fftEngine, .ref .fourierBootstrapKey, .ref .lweMutView, .ref .lweView, .ref .glweView],
   [.deref 0, .deref 1, .deref 2, .deref 3, .deref 4, .compute 0]⟩

/-- backends/fft/engines/lwe_ciphertext_discarding_bootstrap.rs:70-117. -/
def fft_engine_lwe_ciphertext_discarding_bootstrap_u64_raw_ptr_buffers : Fn :=
  ⟨[.ref .fftEngine, .ref .defaultEngine, .ref .fourierBootstrapKey, .raw 8, .raw 8, .raw 8],
   [.check 0, .deref 0, .check 1, .deref 1, .check 2, .deref 2, .compute 0, .compute 1, .compute 2, .compute 3, .check 3, .deref 3, .compute 4, .check 4, .deref 4, .compute 5, .check 5, .compute 6, .deref 5, .compute 7, .compute 8]⟩

/-- backends/fft/engines/lwe_ciphertext_discarding_bootstrap.rs:122-160. -/
def fft_engine_lwe_ciphertext_discarding_bootstrap_unchecked_u64_raw_ptr_buffers : Fn :=
  ⟨[.ref .fftEngine, .ref .defaultEngine, .ref .fourierBootstrapKey, .raw 8, .raw 8, .raw 8],
   [.deref 0, .deref 1, .check 2, .deref 2, .compute 0, .compute 1, .compute 2, .compute 3, .deref 3, .compute 4, .deref 4, .compute 5, .compute 6, .deref 5, .compute 7, .compute 8]⟩

/-- backends/fft/engines/lwe_ciphertext_vector_discarding_circuit_bootstrap_boolean_vertical_packing.rs:15-61. -/
def fft_engine_lwe_ciphertext_vector_discarding_circuit_bootstrap_boolean_vertical_packing_u64_view_buffers : Fn :=
  ⟨[.ref .fftEngine, .ref .defaultEngine, .ref .fourierBootstrapKey, .ref .lweVectorMutView, .ref .lweVectorView, .raw 8, .int, .int, .int, .ref .cbsPfpksk],
   [.check 0, .deref 0, .check 1, .deref 1, .check 3, .deref 3, .check 4, .deref 4, .check 2, .deref 2, .check 5, .deref 5, .compute 0, .check 9, .deref 9, .compute 1]⟩

/-- backends/fft/engines/lwe_ciphertext_vector_discarding_circuit_bootstrap_boolean_vertical_packing.rs:66-107. -/
def fft_engine_lwe_ciphertext_vector_discarding_circuit_bootstrap_boolean_vertical_packing_unchecked_u64_view_buffers : Fn :=
  ⟨[.ref .fftEngine, .ref .defaultEngine, .ref .fourierBootstrapKey, .ref .lweVectorMutView, .ref .lweVectorView, .raw 8, .int, .int, .int, .ref .cbsPfpksk],
   [.deref 0, .deref 1, .deref 3, .deref 4, .deref 2, .deref 5, .deref 5, .compute 0, .deref 9, .compute 1]⟩

/-- backends/fft/engines/lwe_ciphertext_vector_discarding_circuit_bootstrap_boolean_vertical_packing.rs:112-178. -/
def fft_engine_lwe_ciphertext_vector_discarding_circuit_bootstrap_boolean_vertical_packing_u64_raw_ptr_buffers : Fn :=
  ⟨[.ref .fftEngine, .ref .defaultEngine, .ref .fourierBootstrapKey, .raw 8, .int, .int, .raw 8, .int, .int, .raw 8, .int, .int, .int, .ref .cbsPfpksk],
   [.check 0, .deref 0, .check 1, .deref 1, .check 2, .deref 2, .check 3, .compute 0, .deref 3, .compute 1, .check 6, .compute 2, .deref 6, .compute 3, .check 9, .deref 9, .compute 4, .check 13, .deref 13, .compute 5]⟩

/-- backends/fft/engines/lwe_ciphertext_vector_discarding_circuit_bootstrap_boolean_vertical_packing.rs:183-240. -/
def fft_engine_lwe_ciphertext_vector_discarding_circuit_bootstrap_boolean_vertical_packing_unchecked_u64_raw_ptr_buffers : Fn :=
  ⟨[.ref .fftEngine, .ref .defaultEngine, .ref .fourierBootstrapKey, .raw 8, .int, .int, .raw 8, .int, .int, .raw 8, .int, .int, .int, .ref .cbsPfpksk],
   [.deref 0, .deref 1, .deref 2, .deref 3, .compute 0, .deref 3, .compute 1, .deref 6, .compute 2, .deref 6, .compute 3, .deref 9, .deref 9, .compute 4, .deref 13, .compute 5]⟩

/-- backends/fft/engines/mod.rs:12-23. -/
def new_fft_engine : Fn :=
  ⟨[.result .fftEngine],
   [.check 0, .nullSlot 0, .compute 0, .give 0]⟩

/-- backends/fft/engines/mod.rs:27-36. -/
def new_fft_engine_unchecked : Fn :=
  ⟨[.result .fftEngine],
   [.nullSlot 0, .compute 0, .give 0]⟩

/-- backends/fft/engines/mod.rs:42-49. -/
def destroy_fft_engine : Fn :=
  ⟨[.destroyed .fftEngine],
   [.check 0, .free 0]⟩

/-- backends/fft/engines/mod.rs:53-58. -/
def destroy_fft_engine_unchecked : Fn :=
  ⟨[.destroyed .fftEngine],
   [.free 0]⟩

/-- backends/fft/engines/mod.rs:65-79. -/
def new_fft_serialization_engine : Fn :=
  ⟨[.result .fftSerializationEngine],
   [.check 0, .nullSlot 0, .compute 0, .give 0]⟩

/-- backends/fft/engines/mod.rs:85-97. -/
def new_fft_serialization_engine_unchecked : Fn :=
  ⟨[.result .fftSerializationEngine],
   [.nullSlot 0, .compute 0, .give 0]⟩

/-- backends/fft/engines/mod.rs:104-113. -/
def destroy_fft_serialization_engine : Fn :=
  ⟨[.destroyed .fftSerializationEngine],
   [.check 0, .free 0]⟩

/-- backends/fft/engines/mod.rs:119-126. -/
def destroy_fft_serialization_engine_unchecked : Fn :=
  ⟨[.destroyed .fftSerializationEngine],
   [.free 0]⟩

/-- buffer.rs:51-64. -/
def destroy_buffer : Fn :=
  ⟨[.destroyedBuf],
   [.check 0, .load 0, .checkLoaded 0, .freeBytes 0, .nullSlot 0]⟩

/-- buffer.rs:68-81. -/
def destroy_buffer_unchecked : Fn :=
  ⟨[.destroyedBuf],
   [.load 0, .freeBytes 0, .nullSlot 0]⟩

/-- seeders/apple_secure_enclave_seeder.rs:21-26. -/
def apple_secure_enclave_seeder_is_available : Fn :=
  ⟨[.raw 1],
   [.check 0, .compute 0, .deref 0]⟩

/-- seeders/apple_secure_enclave_seeder.rs:31-37. -/
def apple_secure_enclave_seeder_is_available_unchecked : Fn :=
  ⟨[.raw 1],
   [.compute 0, .deref 0]⟩

/-- seeders/apple_secure_enclave_seeder.rs:44-54. -/
def get_apple_secure_enclave_seeder_builder : Fn :=
  ⟨[.result .seederBuilder],
   [.check 0, .compute 0, .give 0]⟩

/-- seeders/apple_secure_enclave_seeder.rs:59-68. -/
def get_apple_secure_enclave_seeder_builder_unchecked : Fn :=
  ⟨[.result .seederBuilder],
   [.compute 0, .give 0]⟩

/-- seeders/rdseed_x86_64_seeder.rs:21-26. -/
def rdseed_seeder_is_available : Fn :=
  ⟨[.raw 1],
   [.check 0, .compute 0, .deref 0]⟩

/-- seeders/rdseed_x86_64_seeder.rs:31-35. -/
def rdseed_seeder_is_available_unchecked : Fn :=
  ⟨[.raw 1],
   [.compute 0, .deref 0]⟩

/-- seeders/rdseed_x86_64_seeder.rs:42-49. -/
def get_rdseed_seeder_builder : Fn :=
  ⟨[.result .seederBuilder],
   [.check 0, .compute 0, .give 0]⟩

/-- seeders/rdseed_x86_64_seeder.rs:54-62. -/
def get_rdseed_seeder_builder_unchecked : Fn :=
  ⟨[.result .seederBuilder],
   [.compute 0, .give 0]⟩

/-- seeders/seeder_builder.rs:32-39. -/
def destroy_seeder_builder : Fn :=
  ⟨[.destroyed .seederBuilder],
   [.check 0, .free 0]⟩

/-- seeders/seeder_builder.rs:44-51. -/
def destroy_seeder_builder_unchecked : Fn :=
  ⟨[.destroyed .seederBuilder],
   [.free 0]⟩

/-- seeders/unix_seeder.rs:28-33. -/
def unix_seeder_is_available : Fn :=
  ⟨[.raw 1],
   [.check 0, .compute 0, .deref 0]⟩

/-- seeders/unix_seeder.rs:38-42. -/
def unix_seeder_is_available_unchecked : Fn :=
  ⟨[.raw 1],
   [.compute 0, .deref 0]⟩

/-- seeders/unix_seeder.rs:59-71. -/
def get_unix_seeder_builder : Fn :=
  ⟨[.int, .int, .result .seederBuilder],
   [.check 2, .compute 0, .compute 1, .give 2]⟩

/-- seeders/unix_seeder.rs:76-87. -/
def get_unix_seeder_builder_unchecked : Fn :=
  ⟨[.int, .int, .result .seederBuilder],
   [.compute 0, .compute 1, .give 2]⟩

/-- The checked functions with their unchecked versions. -/
def pairs : List (Fn × Fn) := [
  (destroy_glwe_ciphertext_view_u64,
    destroy_glwe_ciphertext_view_unchecked_u64),
  (destroy_glwe_ciphertext_mut_view_u64,
    destroy_glwe_ciphertext_mut_view_unchecked_u64),
  (destroy_lwe_ciphertext_view_u64,
    destroy_lwe_ciphertext_view_unchecked_u64),
  (destroy_lwe_ciphertext_mut_view_u64,
    destroy_lwe_ciphertext_mut_view_unchecked_u64),
  (destroy_lwe_ciphertext_vector_view_u64,
    destroy_lwe_ciphertext_vector_view_unchecked_u64),
  (destroy_lwe_ciphertext_vector_mut_view_u64,
    destroy_lwe_ciphertext_vector_mut_view_unchecked_u64),
  (destroy_lwe_circuit_bootstrap_private_functional_packing_keyswitch_keys_u64,
    destroy_lwe_circuit_bootstrap_private_functional_packing_keyswitch_keys_unchecked_u64),
  (destroy_lwe_secret_key_u64,
    destroy_lwe_secret_key_unchecked_u64),
  (destroy_glwe_secret_key_u64,
    destroy_glwe_secret_key_unchecked_u64),
  (destroy_lwe_keyswitch_key_u64,
    destroy_lwe_keyswitch_key_unchecked_u64),
  (destroy_lwe_keyswitch_key_mut_view_u64,
    destroy_lwe_keyswitch_key_mut_view_unchecked_u64),
  (destroy_lwe_seeded_keyswitch_key_u64,
    destroy_lwe_seeded_keyswitch_key_unchecked_u64),
  (destroy_lwe_bootstrap_key_u64,
    destroy_lwe_bootstrap_key_unchecked_u64),
  (destroy_lwe_bootstrap_key_mut_view_u64,
    destroy_lwe_bootstrap_key_mut_view_unchecked_u64),
  (destroy_lwe_seeded_bootstrap_key_u64,
    destroy_lwe_seeded_bootstrap_key_unchecked_u64),
  (default_serialization_engine_deserialize_lwe_secret_key_u64,
    default_serialization_engine_deserialize_lwe_secret_key_unchecked_u64),
  (default_serialization_engine_deserialize_lwe_keyswitch_key_u64,
    default_serialization_engine_deserialize_lwe_keyswitch_key_unchecked_u64),
  (default_serialization_engine_deserialize_lwe_seeded_keyswitch_key_u64,
    default_serialization_engine_deserialize_lwe_seeded_keyswitch_key_unchecked_u64),
  (default_serialization_engine_deserialize_lwe_seeded_bootstrap_key_u64,
    default_serialization_engine_deserialize_lwe_seeded_bootstrap_key_unchecked_u64),
  (default_serialization_engine_deserialize_lwe_bootstrap_key_u64,
    default_serialization_engine_deserialize_lwe_bootstrap_key_unchecked_u64),
  (default_serialization_engine_deserialize_lwe_circuit_bootstrap_private_functional_packing_keyswitch_keys_u64,
    default_serialization_engine_deserialize_lwe_circuit_bootstrap_private_functional_packing_keyswitch_keys_unchecked_u64),
  (default_serialization_engine_serialize_lwe_secret_key_u64,
    default_serialization_engine_serialize_lwe_secret_key_unchecked_u64),
  (default_serialization_engine_serialize_lwe_keyswitch_key_u64,
    default_serialization_engine_serialize_lwe_keyswitch_key_unchecked_u64),
  (default_serialization_engine_serialize_lwe_seeded_keyswitch_key_u64,
    default_serialization_engine_serialize_lwe_seeded_keyswitch_key_unchecked_u64),
  (default_serialization_engine_serialize_lwe_seeded_bootstrap_key_u64,
    default_serialization_engine_serialize_lwe_seeded_bootstrap_key_unchecked_u64),
  (default_serialization_engine_serialize_lwe_bootstrap_key_u64,
    default_serialization_engine_serialize_lwe_bootstrap_key_unchecked_u64),
  (default_serialization_engine_serialize_lwe_circuit_bootstrap_private_functional_packing_keyswitch_keys_u64,
    default_serialization_engine_serialize_lwe_circuit_bootstrap_private_functional_packing_keyswitch_keys_unchecked_u64),
  (default_engine_create_glwe_ciphertext_view_from_u64,
    default_engine_create_glwe_ciphertext_view_from_unchecked_u64),
  (default_engine_create_glwe_ciphertext_mut_view_from_u64,
    default_engine_create_glwe_ciphertext_mut_view_from_unchecked_u64),
  (default_engine_discard_trivially_encrypt_glwe_ciphertext_u64_view_buffers,
    default_engine_discard_trivially_encrypt_glwe_ciphertext_unchecked_u64_view_buffers),
  (default_engine_discard_trivially_encrypt_glwe_ciphertext_u64_raw_ptr_buffers,
    default_engine_discard_trivially_encrypt_glwe_ciphertext_unchecked_u64_raw_ptr_buffers),
  (default_engine_transform_glwe_secret_key_to_lwe_secret_key_u64,
    default_engine_transform_glwe_secret_key_to_lwe_secret_key_unchecked_u64),
  (default_engine_generate_new_glwe_secret_key_u64,
    default_engine_generate_new_glwe_secret_key_unchecked_u64),
  (default_engine_create_lwe_bootstrap_key_mut_view_from_u64,
    default_engine_create_lwe_bootstrap_key_mut_view_from_unchecked_u64),
  (default_engine_discard_convert_lwe_bootstrap_key_to_lwe_bootstrap_key_mut_view_u64_view_buffers,
    default_engine_discard_convert_lwe_bootstrap_key_to_lwe_bootstrap_key_mut_view_unchecked_u64_view_buffers),
  (default_engine_discard_convert_lwe_bootstrap_key_to_lwe_bootstrap_key_mut_view_u64_raw_ptr_buffers,
    default_engine_discard_convert_lwe_bootstrap_key_to_lwe_bootstrap_key_mut_view_unchecked_u64_raw_ptr_buffers),
  (default_engine_generate_new_lwe_bootstrap_key_u64,
    default_engine_generate_new_lwe_bootstrap_key_unchecked_u64),
  (default_parallel_engine_generate_new_lwe_bootstrap_key_u64,
    default_parallel_engine_generate_new_lwe_bootstrap_key_unchecked_u64),
  (default_engine_discard_mul_lwe_ciphertext_cleartext_u64_view_buffers,
    default_engine_discard_mul_lwe_ciphertext_cleartext_unchecked_u64_view_buffers),
  (default_engine_discard_mul_lwe_ciphertext_cleartext_u64_raw_ptr_buffers,
    default_engine_discard_mul_lwe_ciphertext_cleartext_unchecked_u64_raw_ptr_buffers),
  (default_engine_create_lwe_ciphertext_view_from_u64,
    default_engine_create_lwe_ciphertext_view_from_unchecked_u64),
  (default_engine_create_lwe_ciphertext_mut_view_from_u64,
    default_engine_create_lwe_ciphertext_mut_view_from_unchecked_u64),
  (default_engine_decrypt_lwe_ciphertext_u64_view_buffers,
    default_engine_decrypt_lwe_ciphertext_unchecked_u64_view_buffers),
  (default_engine_decrypt_lwe_ciphertext_u64_raw_ptr_buffers,
    default_engine_decrypt_lwe_ciphertext_unchecked_u64_raw_ptr_buffers),
  (default_engine_discard_add_lwe_ciphertext_u64_view_buffers,
    default_engine_discard_add_lwe_ciphertext_unchecked_u64_view_buffers),
  (default_engine_discard_add_lwe_ciphertext_u64_raw_ptr_buffers,
    default_engine_discard_add_lwe_ciphertext_unchecked_u64_raw_ptr_buffers),
  (default_engine_discard_encrypt_lwe_ciphertext_u64_view_buffers,
    default_engine_discard_encrypt_lwe_ciphertext_unchecked_u64_view_buffers),
  (default_engine_discard_encrypt_lwe_ciphertext_u64_raw_ptr_buffers,
    default_engine_discard_encrypt_lwe_ciphertext_unchecked_u64_raw_ptr_buffers),
  (default_engine_discard_keyswitch_lwe_ciphertext_u64_view_buffers,
    default_engine_discard_keyswitch_lwe_ciphertext_unchecked_u64_view_buffers),
  (default_engine_discard_keyswitch_lwe_ciphertext_u64_raw_ptr_buffers,
    default_engine_discard_keyswitch_lwe_ciphertext_unchecked_u64_raw_ptr_buffers),
  (default_engine_discard_opp_lwe_ciphertext_u64_view_buffers,
    default_engine_discard_opp_lwe_ciphertext_unchecked_u64_view_buffers),
  (default_engine_discard_opp_lwe_ciphertext_u64_raw_ptr_buffers,
    default_engine_discard_opp_lwe_ciphertext_unchecked_u64_raw_ptr_buffers),
  (default_engine_discard_add_lwe_ciphertext_plaintext_u64_view_buffers,
    default_engine_discard_add_lwe_ciphertext_plaintext_unchecked_u64_view_buffers),
  (default_engine_discard_add_lwe_ciphertext_plaintext_u64_raw_ptr_buffers,
    default_engine_discard_add_lwe_ciphertext_plaintext_unchecked_u64_raw_ptr_buffers),
  (default_engine_create_lwe_ciphertext_vector_view_from_u64,
    default_engine_create_lwe_ciphertext_vector_view_from_unchecked_u64),
  (default_engine_create_lwe_ciphertext_vector_mut_view_from_u64,
    default_engine_create_lwe_ciphertext_vector_mut_view_from_unchecked_u64),
  (default_engine_decrypt_lwe_ciphertext_vector_u64_view_buffers,
    default_engine_decrypt_lwe_ciphertext_vector_unchecked_u64_view_buffers),
  (default_engine_decrypt_lwe_ciphertext_vector_u64_raw_ptr_buffers,
    default_engine_decrypt_lwe_ciphertext_vector_unchecked_u64_raw_ptr_buffers),
  (default_engine_generate_new_lwe_circuit_bootstrap_private_functional_packing_keyswitch_keys_u64,
    default_engine_generate_new_lwe_circuit_bootstrap_private_functional_packing_keyswitch_keys_unchecked_u64),
  (default_parallel_engine_generate_new_lwe_circuit_bootstrap_private_functional_packing_keyswitch_keys_u64,
    default_parallel_engine_generate_new_lwe_circuit_bootstrap_private_functional_packing_keyswitch_keys_unchecked_u64),
  (default_engine_transform_lwe_secret_key_to_glwe_secret_key_u64,
    default_engine_transform_lwe_secret_key_to_glwe_secret_key_unchecked_u64),
  (default_engine_create_lwe_keyswitch_key_mut_view_from_u64,
    default_engine_create_lwe_keyswitch_key_mut_view_from_unchecked_u64),
  (default_engine_discard_convert_lwe_keyswitch_key_to_lwe_keyswitch_key_mut_view_u64_view_buffers,
    default_engine_discard_convert_lwe_keyswitch_key_to_lwe_keyswitch_key_mut_view_unchecked_u64_view_buffers),
  (default_engine_discard_convert_lwe_keyswitch_key_to_lwe_keyswitch_key_mut_view_u64_raw_ptr_buffers,
    default_engine_discard_convert_lwe_keyswitch_key_to_lwe_keyswitch_key_mut_view_unchecked_u64_raw_ptr_buffers),
  (default_engine_generate_new_lwe_keyswitch_key_u64,
    default_engine_generate_new_lwe_keyswitch_key_unchecked_u64),
  (default_engine_generate_new_lwe_secret_key_u64,
    default_engine_generate_new_lwe_secret_key_unchecked_u64),
  (default_engine_generate_new_lwe_seeded_bootstrap_key_u64,
    default_engine_generate_new_lwe_seeded_bootstrap_key_unchecked_u64),
  (default_parallel_engine_generate_new_lwe_seeded_bootstrap_key_u64,
    default_parallel_engine_generate_new_lwe_seeded_bootstrap_key_unchecked_u64),
  (default_engine_transform_lwe_seeded_bootstrap_key_to_lwe_bootstrap_key_u64,
    default_engine_transform_lwe_seeded_bootstrap_key_to_lwe_bootstrap_key_unchecked_u64),
  (default_engine_generate_new_lwe_seeded_keyswitch_key_u64,
    default_engine_generate_new_lwe_seeded_keyswitch_key_unchecked_u64),
  (default_engine_transform_lwe_seeded_keyswitch_key_to_lwe_keyswitch_key_u64,
    default_engine_transform_lwe_seeded_keyswitch_key_to_lwe_keyswitch_key_unchecked_u64),
  (new_default_engine,
    new_default_engine_unchecked),
  (destroy_default_engine,
    destroy_default_engine_unchecked),
  (new_default_parallel_engine,
    new_default_parallel_engine_unchecked),
  (destroy_default_parallel_engine,
    destroy_default_parallel_engine_unchecked),
  (new_default_serialization_engine,
    new_default_serialization_engine_unchecked),
  (destroy_default_serialization_engine,
    destroy_default_serialization_engine_unchecked),
  (clone_glwe_secret_key_u64,
    clone_glwe_secret_key_unchecked_u64),
  (clone_lwe_secret_key_u64,
    clone_lwe_secret_key_unchecked_u64),
  (destroy_fft_fourier_lwe_bootstrap_key_u64,
    destroy_fft_fourier_lwe_bootstrap_key_unchecked_u64),
  (fft_serialization_engine_deserialize_fft_fourier_lwe_bootstrap_key_u64,
    fft_serialization_engine_deserialize_fft_fourier_lwe_bootstrap_key_unchecked_u64),
  (fft_serialization_engine_serialize_fft_fourier_lwe_bootstrap_key_u64,
    fft_serialization_engine_serialize_fft_fourier_lwe_bootstrap_key_unchecked_u64),
  (fft_engine_convert_lwe_bootstrap_key_to_fft_fourier_lwe_bootstrap_key_u64,
    fft_engine_convert_lwe_bootstrap_key_to_fft_fourier_lwe_bootstrap_key_unchecked_u64),
  (fft_engine_lwe_ciphertext_discarding_bit_extraction_u64_view_buffers,
    fft_engine_lwe_ciphertext_discarding_bit_extraction_unchecked_u64_view_buffers),
  (fft_engine_lwe_ciphertext_discarding_bit_extraction_u64_raw_ptr_buffers,
    fft_engine_lwe_ciphertext_discarding_bit_extraction_unchecked_u64_raw_ptr_buffers),
  (fft_engine_lwe_ciphertext_discarding_bootstrap_u64_view_buffers,
    fft_engine_lwe_ciphertext_discarding_bootstrap_unchecked_u64_view_buffers),
  (fft_engine_lwe_ciphertext_discarding_bootstrap_u64_raw_ptr_buffers,
    fft_engine_lwe_ciphertext_discarding_bootstrap_unchecked_u64_raw_ptr_buffers),
  (fft_engine_lwe_ciphertext_vector_discarding_circuit_bootstrap_boolean_vertical_packing_u64_view_buffers,
    fft_engine_lwe_ciphertext_vector_discarding_circuit_bootstrap_boolean_vertical_packing_unchecked_u64_view_buffers),
  (fft_engine_lwe_ciphertext_vector_discarding_circuit_bootstrap_boolean_vertical_packing_u64_raw_ptr_buffers,
    fft_engine_lwe_ciphertext_vector_discarding_circuit_bootstrap_boolean_vertical_packing_unchecked_u64_raw_ptr_buffers),
  (new_fft_engine,
    new_fft_engine_unchecked),
  (destroy_fft_engine,
    destroy_fft_engine_unchecked),
  (new_fft_serialization_engine,
    new_fft_serialization_engine_unchecked),
  (destroy_fft_serialization_engine,
    destroy_fft_serialization_engine_unchecked),
  (destroy_buffer,
    destroy_buffer_unchecked),
  (apple_secure_enclave_seeder_is_available,
    apple_secure_enclave_seeder_is_available_unchecked),
  (get_apple_secure_enclave_seeder_builder,
    get_apple_secure_enclave_seeder_builder_unchecked),
  (rdseed_seeder_is_available,
    rdseed_seeder_is_available_unchecked),
  (get_rdseed_seeder_builder,
    get_rdseed_seeder_builder_unchecked),
  (destroy_seeder_builder,
    destroy_seeder_builder_unchecked),
  (unix_seeder_is_available,
    unix_seeder_is_available_unchecked),
  (get_unix_seeder_builder,
    get_unix_seeder_builder_unchecked)]

/-- The checked functions. -/
def checked : List Fn := pairs.map Prod.fst

end Verif.Ffi.Table
