import Verif.Conformance.Support

/-! Translated from tests/models/bindings/test_redis.py by tools/gen_conformance.py. -/

set_option maxRecDepth 100000
set_option linter.unusedVariables false
namespace Verif.Conformance
open Verif Verif.Gen Verif.Pyd

/-- `test_redis_server_bindings_serialization`, tests/models/bindings/test_redis.py:19 -/
example : (do
  let v1 ← make .RedisServerBindings []
  check (eq (dump v1) (.dict [])) : Option Unit).isSome = true := by decide +kernel

/-- `test_redis_server_bindings_python_validation_error`, tests/models/bindings/test_redis.py:25 -/
example : (do
  raises (do
    discard (make .RedisServerBindings [(p!"some_field", (.str p!"value"))]) : Option Unit) : Option Unit).isSome = true := by decide +kernel

/-- `test_redis_server_bindings_yaml_validation_error`, tests/models/bindings/test_redis.py:30 -/
example : (do
  raises (do
    discard (load .RedisServerBindings (.dict [(p!"some_field", (.str p!"value"))])) : Option Unit) : Option Unit).isSome = true := by decide +kernel

/-- `test_redis_server_bindings_yaml_empty_validation`, tests/models/bindings/test_redis.py:40 -/
example : (do
  let v1 ← load .RedisServerBindings (.dict [])
  check (!(V.isNone v1)) : Option Unit).isSome = true := by decide +kernel

/-- `test_redis_channel_bindings_serialization`, tests/models/bindings/test_redis.py:53 -/
example : (do
  let v1 ← make .RedisChannelBindings []
  check (eq (dump v1) (.dict [])) : Option Unit).isSome = true := by decide +kernel

/-- `test_redis_channel_bindings_python_validation_error`, tests/models/bindings/test_redis.py:59 -/
example : (do
  raises (do
    discard (make .RedisChannelBindings [(p!"some_field", (.str p!"value"))]) : Option Unit) : Option Unit).isSome = true := by decide +kernel

/-- `test_redis_channel_bindings_yaml_validation_error`, tests/models/bindings/test_redis.py:64 -/
example : (do
  raises (do
    discard (load .RedisChannelBindings (.dict [(p!"some_field", (.str p!"value"))])) : Option Unit) : Option Unit).isSome = true := by decide +kernel

/-- `test_redis_channel_bindings_yaml_empty_validation`, tests/models/bindings/test_redis.py:74 -/
example : (do
  let v1 ← load .RedisChannelBindings (.dict [])
  check (!(V.isNone v1)) : Option Unit).isSome = true := by decide +kernel

/-- `test_redis_operation_bindings_serialization`, tests/models/bindings/test_redis.py:87 -/
example : (do
  let v1 ← make .RedisOperationBindings []
  check (eq (dump v1) (.dict [])) : Option Unit).isSome = true := by decide +kernel

/-- `test_redis_operation_bindings_python_validation_error`, tests/models/bindings/test_redis.py:93 -/
example : (do
  raises (do
    discard (make .RedisOperationBindings [(p!"some_field", (.str p!"value"))]) : Option Unit) : Option Unit).isSome = true := by decide +kernel

/-- `test_redis_operation_bindings_yaml_validation_error`, tests/models/bindings/test_redis.py:98 -/
example : (do
  raises (do
    discard (load .RedisOperationBindings (.dict [(p!"some_field", (.str p!"value"))])) : Option Unit) : Option Unit).isSome = true := by decide +kernel

/-- `test_redis_operation_bindings_yaml_empty_validation`, tests/models/bindings/test_redis.py:108 -/
example : (do
  let v1 ← load .RedisOperationBindings (.dict [])
  check (!(V.isNone v1)) : Option Unit).isSome = true := by decide +kernel

/-- `test_redis_message_bindings_serialization`, tests/models/bindings/test_redis.py:121 -/
example : (do
  let v1 ← make .RedisMessageBindings []
  check (eq (dump v1) (.dict [])) : Option Unit).isSome = true := by decide +kernel

/-- `test_redis_message_bindings_python_validation_error`, tests/models/bindings/test_redis.py:127 -/
example : (do
  raises (do
    discard (make .RedisMessageBindings [(p!"some_field", (.str p!"value"))]) : Option Unit) : Option Unit).isSome = true := by decide +kernel

/-- `test_redis_message_bindings_yaml_validation_error`, tests/models/bindings/test_redis.py:132 -/
example : (do
  raises (do
    discard (load .RedisMessageBindings (.dict [(p!"some_field", (.str p!"value"))])) : Option Unit) : Option Unit).isSome = true := by decide +kernel

/-- `test_redis_message_bindings_yaml_empty_validation`, tests/models/bindings/test_redis.py:142 -/
example : (do
  let v1 ← load .RedisMessageBindings (.dict [])
  check (!(V.isNone v1)) : Option Unit).isSome = true := by decide +kernel

end Verif.Conformance
