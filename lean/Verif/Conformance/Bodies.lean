import Verif.Conformance.Basic

/-!
# The test tables of the repository: the statements with a body

Generated by `conformance/gen.py`; see `Verif/Conformance/Basic.lean`.
-/

namespace Verif.Conformance
open Verif Parser

/-! ## enum_test.go -/

-- parsing an empty
example :
    (fails (parseEnum (cfg false false)) c!"" c!"") =
    (true) := by
  kernel_rfl

-- parsing an invalid option
example :
    (fails (parseEnum (cfg false false)) c!""
       c!"enum EnumAllowingAlias {\n\
          \x20 allow_alias = true;\n\
          \x20 UNKNOWN = 0;\n\
          \x20 STARTED = 1;\n\
          \x20 RUNNING = 2 [(custom_option) = \"hello world\"];\n\
          }\n") =
    (true) := by
  kernel_rfl

-- parsing an excerpt from the official reference
example :
    (reads (parseEnum (cfg false false)) c!""
       c!"enum EnumAllowingAlias {\n\
          \x20 option allow_alias = true;\n\
          \x20 UNKNOWN = 0;\n\
          \x20 STARTED = 1;\n\
          \x20 RUNNING = 2 [(custom_option) = \"hello world\"];\n\
          }\n") =
    (some ({ enumName := c!"EnumAllowingAlias",
             enumBody := [.option { optionName := c!"allow_alias",
                                    constant := c!"true",
                                    info := ⟨⟨[], 27, 2, 3⟩, ⟨[], 52, 2, 28⟩⟩ },
                          .enumField { ident := c!"UNKNOWN",
                                       number := c!"0",
                                       enumValueOptions := [],
                                       info := ⟨⟨[], 56, 3, 3⟩, ⟨[], 67, 3, 14⟩⟩ },
                          .enumField { ident := c!"STARTED",
                                       number := c!"1",
                                       enumValueOptions := [],
                                       info := ⟨⟨[], 71, 4, 3⟩, ⟨[], 82, 4, 14⟩⟩ },
                          .enumField { ident := c!"RUNNING",
                                       number := c!"2",
                                       enumValueOptions := [{ optionName := c!"(custom_option)",
                                                              constant := c!"\"hello world\"" }],
                                       info := ⟨⟨[], 86, 5, 3⟩, ⟨[], 131, 5, 48⟩⟩ }],
             info := ⟨⟨[], 0, 1, 1⟩, ⟨[], 133, 6, 1⟩⟩ },
           true)) := by
  kernel_rfl

-- parsing enumValueOptions
example :
    (reads (parseEnum (cfg false false)) c!""
       c!"enum EnumAllowingAlias {\n\
          \x20 RUNNING = 0 [(custom_option) = \"hello world\", (custom_option2) = \"hello world2\
          \"];\n\
          }\n") =
    (some ({ enumName := c!"EnumAllowingAlias",
             enumBody := [.enumField { ident := c!"RUNNING",
                                       number := c!"0",
                                       enumValueOptions := [{ optionName := c!"(custom_option)",
                                                              constant := c!"\"hello world\"" },
                                                            { optionName := c!"(custom_option2)",
                                                              constant := c!"\"hello world2\"" }],
                                       info := ⟨⟨[], 27, 2, 3⟩, ⟨[], 107, 2, 83⟩⟩ }],
             info := ⟨⟨[], 0, 1, 1⟩, ⟨[], 109, 3, 1⟩⟩ },
           true)) := by
  kernel_rfl

-- parsing comments
example :
    (reads (parseEnum (cfg false false)) c!""
       c!"enum EnumAllowingAlias {\n\
          \x20 // option\n\
          \x20 option allow_alias = true;\n\
          \x20 // UNKNOWN\n\
          \x20 UNKNOWN = 0;\n\
          }\n") =
    (some ({ enumName := c!"EnumAllowingAlias",
             enumBody := [.option { optionName := c!"allow_alias",
                                    constant := c!"true",
                                    comments := [⟨c!"// option",
                                                  ⟨⟨[], 27, 2, 3⟩, ⟨[], 35, 2, 11⟩⟩⟩],
                                    info := ⟨⟨[], 39, 3, 3⟩, ⟨[], 64, 3, 28⟩⟩ },
                          .enumField { ident := c!"UNKNOWN",
                                       number := c!"0",
                                       enumValueOptions := [],
                                       comments := [⟨c!"// UNKNOWN",
                                                     ⟨⟨[], 68, 4, 3⟩, ⟨[], 77, 4, 12⟩⟩⟩],
                                       info := ⟨⟨[], 81, 5, 3⟩, ⟨[], 92, 5, 14⟩⟩ }],
             info := ⟨⟨[], 0, 1, 1⟩, ⟨[], 94, 6, 1⟩⟩ },
           true)) := by
  kernel_rfl

-- parsing inline comments
example :
    (reads (parseEnum (cfg false false)) c!""
       c!"enum EnumAllowingAlias { // TODO: implementation\n\
          \x20 option allow_alias = true; // option\n\
          \x20 UNKNOWN = 0; // UNKNOWN\n\
          }\n") =
    (some ({ enumName := c!"EnumAllowingAlias",
             enumBody := [.option { optionName := c!"allow_alias",
                                    constant := c!"true",
                                    inlineComment := (some ⟨c!"// option",
                                                            ⟨⟨[], 78, 2, 30⟩, ⟨[], 86, 2, 38⟩⟩⟩),
                                    info := ⟨⟨[], 51, 2, 3⟩, ⟨[], 76, 2, 28⟩⟩ },
                          .enumField { ident := c!"UNKNOWN",
                                       number := c!"0",
                                       enumValueOptions := [],
                                       inlineComment := (some ⟨c!"// UNKNOWN",
                                                               ⟨⟨[], 103, 3, 16⟩,
                                                                ⟨[], 112, 3, 25⟩⟩⟩),
                                       info := ⟨⟨[], 90, 3, 3⟩, ⟨[], 101, 3, 14⟩⟩ }],
             info := ⟨⟨[], 0, 1, 1⟩, ⟨[], 114, 4, 1⟩⟩,
             inlineCommentBehindLeftCurly := (some ⟨c!"// TODO: implementation",
                                                    ⟨⟨[], 25, 1, 26⟩, ⟨[], 47, 1, 48⟩⟩⟩) },
           true)) := by
  kernel_rfl

-- skipping a last comment
example :
    (reads (parseEnum (cfg false false)) c!""
       c!"enum EnumAllowingAlias {\n  option allow_alias = true;\n  // last line\n}\n") =
    (some ({ enumName := c!"EnumAllowingAlias",
             enumBody := [.option { optionName := c!"allow_alias",
                                    constant := c!"true",
                                    info := ⟨⟨[], 27, 2, 3⟩, ⟨[], 52, 2, 28⟩⟩ }],
             info := ⟨⟨[], 0, 1, 1⟩, ⟨[], 69, 4, 1⟩⟩ },
           true)) := by
  kernel_rfl

-- parsing last comments
example :
    (reads (parseEnum (cfg false true)) c!""
       c!"enum EnumAllowingAlias {\n\
          \x20 option allow_alias = true;\n\
          \x20 // last first comment\n\
          \x20 /* last second comment */\n\
          }\n") =
    (some ({ enumName := c!"EnumAllowingAlias",
             enumBody := [.option { optionName := c!"allow_alias",
                                    constant := c!"true",
                                    info := ⟨⟨[], 27, 2, 3⟩, ⟨[], 52, 2, 28⟩⟩ },
                          .comment ⟨c!"// last first comment", ⟨⟨[], 56, 3, 3⟩, ⟨[], 76, 3, 23⟩⟩⟩,
                          .comment ⟨c!"/* last second comment */",
                                    ⟨⟨[], 80, 4, 3⟩, ⟨[], 104, 4, 27⟩⟩⟩],
             info := ⟨⟨[], 0, 1, 1⟩, ⟨[], 106, 5, 1⟩⟩ },
           true)) := by
  kernel_rfl

-- parsing an excerpt containing reserved, from the official reference
example :
    (reads (parseEnum (cfg false false)) c!""
       c!"enum Foo {\n  reserved 2, 15, 9 to 11, 40 to max;\n  reserved \"FOO\", \"BAR\";\n}\n") =
    (some ({ enumName := c!"Foo",
             enumBody := [.reserved { ranges := [{ begin_ := c!"2", end_ := c!"" },
                                                 { begin_ := c!"15", end_ := c!"" },
                                                 { begin_ := c!"9", end_ := c!"11" },
                                                 { begin_ := c!"40", end_ := c!"max" }],
                                      fieldNames := [],
                                      info := ⟨⟨[], 13, 2, 3⟩, ⟨[], 47, 2, 37⟩⟩ },
                          .reserved { ranges := [],
                                      fieldNames := [c!"\"FOO\"", c!"\"BAR\""],
                                      info := ⟨⟨[], 51, 3, 3⟩, ⟨[], 72, 3, 24⟩⟩ }],
             info := ⟨⟨[], 0, 1, 1⟩, ⟨[], 74, 4, 1⟩⟩ },
           true)) := by
  kernel_rfl

-- parsing a block followed by semicolon
example :
    (reads (parseEnum (cfg true false)) c!"" c!"enum EnumAllowingAlias {\n};\n") =
    (some ({ enumName := c!"EnumAllowingAlias",
             enumBody := [],
             info := ⟨⟨[], 0, 1, 1⟩, ⟨[], 26, 2, 2⟩⟩ },
           true)) := by
  kernel_rfl

-- set LastPos to the correct position when a semicolon doesn't follow the last block
example :
    (reads (parseEnum (cfg true false)) c!"" c!"enum EnumAllowingAlias {\n}\n") =
    (some ({ enumName := c!"EnumAllowingAlias",
             enumBody := [],
             info := ⟨⟨[], 0, 1, 1⟩, ⟨[], 25, 2, 1⟩⟩ },
           true)) := by
  kernel_rfl

-- parsing an enum with multiple string literals. See #35
example :
    (reads (parseEnum (cfg true false)) c!""
       c!"enum EnumAllowingAlias {\n\
          \x20 UNKNOWN = 0 [(custom_option) = \"this is a \"\n\
          \x20                                \"string on two lines\"\n\
          \x20             ];\n\
          }\n") =
    (some ({ enumName := c!"EnumAllowingAlias",
             enumBody := [.enumField { ident := c!"UNKNOWN",
                                       number := c!"0",
                                       enumValueOptions := [{ optionName := c!"(custom_option)",
                                                              constant :=
                                                                c!"\"this is a string on two lin\
                                                                   es\"" }],
                                       info := ⟨⟨[], 27, 2, 3⟩, ⟨[], 141, 4, 16⟩⟩ }],
             info := ⟨⟨[], 0, 1, 1⟩, ⟨[], 143, 5, 1⟩⟩ },
           true)) := by
  kernel_rfl

-- parsing a negative enum field
example :
    (reads (parseEnum (cfg false false)) c!""
       c!"enum TestNegativeValue {\n\
          \x20 NEGATIVE_CONSTANT = -1;\n\
          \x20 ZERO_CONSTANT = 0;\n\
          \x20 POSITIVE_CONSTANT = 1;\n\
          }\n") =
    (some ({ enumName := c!"TestNegativeValue",
             enumBody := [.enumField { ident := c!"NEGATIVE_CONSTANT",
                                       number := c!"-1",
                                       enumValueOptions := [],
                                       info := ⟨⟨[], 27, 2, 3⟩, ⟨[], 49, 2, 25⟩⟩ },
                          .enumField { ident := c!"ZERO_CONSTANT",
                                       number := c!"0",
                                       enumValueOptions := [],
                                       info := ⟨⟨[], 53, 3, 3⟩, ⟨[], 70, 3, 20⟩⟩ },
                          .enumField { ident := c!"POSITIVE_CONSTANT",
                                       number := c!"1",
                                       enumValueOptions := [],
                                       info := ⟨⟨[], 74, 4, 3⟩, ⟨[], 95, 4, 24⟩⟩ }],
             info := ⟨⟨[], 0, 1, 1⟩, ⟨[], 97, 5, 1⟩⟩ },
           true)) := by
  kernel_rfl

/-! ## extend_test.go -/

-- parsing an empty
example :
    (fails (parseExtend (cfg false false)) c!"" c!"") =
    (true) := by
  kernel_rfl

-- parsing an excerpt from the official reference
example :
    (reads (parseExtend (cfg false false)) c!"" c!"\nextend Foo {\n  int32 bar = 126;\n}\n") =
    (some ({ messageType := c!"Foo",
             extendBody := [.field { isRepeated := false,
                                     isRequired := false,
                                     isOptional := false,
                                     type := c!"int32",
                                     fieldName := c!"bar",
                                     fieldNumber := c!"126",
                                     fieldOptions := [],
                                     info := ⟨⟨[], 16, 3, 3⟩, ⟨[], 31, 3, 18⟩⟩ }],
             info := ⟨⟨[], 1, 2, 1⟩, ⟨[], 33, 4, 1⟩⟩ },
           true)) := by
  kernel_rfl

-- parsing an excerpt from the google/api/annotations.proto
example :
    (reads (parseExtend (cfg false false)) c!""
       c!"\n\
          extend google.protobuf.MethodOptions {\n\
          \x20 // See HttpRule.\n\
          \x20 HttpRule http = 72295728;\n\
          }") =
    (some ({ messageType := c!"google.protobuf.MethodOptions",
             extendBody := [.field { isRepeated := false,
                                     isRequired := false,
                                     isOptional := false,
                                     type := c!"HttpRule",
                                     fieldName := c!"http",
                                     fieldNumber := c!"72295728",
                                     fieldOptions := [],
                                     comments := [⟨c!"// See HttpRule.",
                                                   ⟨⟨[], 42, 3, 3⟩, ⟨[], 57, 3, 18⟩⟩⟩],
                                     info := ⟨⟨[], 61, 4, 3⟩, ⟨[], 85, 4, 27⟩⟩ }],
             info := ⟨⟨[], 1, 2, 1⟩, ⟨[], 87, 5, 1⟩⟩ },
           true)) := by
  kernel_rfl

-- parsing a block followed by semicolon
example :
    (reads (parseExtend (cfg true false)) c!"" c!"\nextend Foo {\n};\n") =
    (some ({ messageType := c!"Foo", extendBody := [], info := ⟨⟨[], 1, 2, 1⟩, ⟨[], 15, 3, 2⟩⟩ },
           true)) := by
  kernel_rfl

-- set LastPos to the correct position when a semicolon doesn't follow the last block
example :
    (reads (parseExtend (cfg true false)) c!"" c!"\nextend Foo {\n}\n") =
    (some ({ messageType := c!"Foo", extendBody := [], info := ⟨⟨[], 1, 2, 1⟩, ⟨[], 14, 3, 1⟩⟩ },
           true)) := by
  kernel_rfl

/-! ## groupField_test.go -/

-- parsing an empty
example :
    (fails (parseGroupField (cfg false false)) c!"" c!"") =
    (true) := by
  kernel_rfl

-- parsing an invalid: groupName is not capitalized.
example :
    (fails (parseGroupField (cfg false false)) c!""
       c!"\n\
          repeated group result = 1 {\n\
          \x20   required string url = 2;\n\
          \x20   optional string title = 3;\n\
          \x20   repeated string snippets = 4;\n\
          }\n") =
    (true) := by
  kernel_rfl

-- parsing an excerpt from the official reference
example :
    (reads (parseGroupField (cfg false false)) c!""
       c!"\n\
          repeated group Result = 1 {\n\
          \x20   required string url = 2;\n\
          \x20   optional string title = 3;\n\
          \x20   repeated string snippets = 4;\n\
          }\n") =
    (some ({ isRepeated := true,
             isRequired := false,
             isOptional := false,
             groupName := c!"Result",
             messageBody := [.field { isRepeated := false,
                                      isRequired := true,
                                      isOptional := false,
                                      type := c!"string",
                                      fieldName := c!"url",
                                      fieldNumber := c!"2",
                                      fieldOptions := [],
                                      info := ⟨⟨[], 33, 3, 5⟩, ⟨[], 56, 3, 28⟩⟩ },
                             .field { isRepeated := false,
                                      isRequired := false,
                                      isOptional := true,
                                      type := c!"string",
                                      fieldName := c!"title",
                                      fieldNumber := c!"3",
                                      fieldOptions := [],
                                      info := ⟨⟨[], 62, 4, 5⟩, ⟨[], 87, 4, 30⟩⟩ },
                             .field { isRepeated := true,
                                      isRequired := false,
                                      isOptional := false,
                                      type := c!"string",
                                      fieldName := c!"snippets",
                                      fieldNumber := c!"4",
                                      fieldOptions := [],
                                      info := ⟨⟨[], 93, 5, 5⟩, ⟨[], 121, 5, 33⟩⟩ }],
             fieldNumber := c!"1",
             info := ⟨⟨[], 1, 2, 1⟩, ⟨[], 123, 6, 1⟩⟩ },
           true)) := by
  kernel_rfl

-- parsing a block followed by semicolon
example :
    (reads (parseGroupField (cfg true false)) c!"" c!"\ngroup Result = 1 {\n};\n") =
    (some ({ isRepeated := false,
             isRequired := false,
             isOptional := false,
             groupName := c!"Result",
             messageBody := [],
             fieldNumber := c!"1",
             info := ⟨⟨[], 1, 2, 1⟩, ⟨[], 21, 3, 2⟩⟩ },
           true)) := by
  kernel_rfl

-- set LastPos to the correct position when a semicolon doesn't follow the last block
example :
    (reads (parseGroupField (cfg true false)) c!"" c!"\ngroup Result = 1 {\n}\n") =
    (some ({ isRepeated := false,
             isRequired := false,
             isOptional := false,
             groupName := c!"Result",
             messageBody := [],
             fieldNumber := c!"1",
             info := ⟨⟨[], 1, 2, 1⟩, ⟨[], 20, 3, 1⟩⟩ },
           true)) := by
  kernel_rfl

/-! ## message_test.go -/

-- parsing an empty
example :
    (fails (parseMessage (cfg false false)) c!"" c!"") =
    (true) := by
  kernel_rfl

-- parsing an excerpt from the official reference
example :
    (reads (parseMessage (cfg false false)) c!""
       c!"\n\
          message Outer {\n\
          \x20 option (my_option).a = true;\n\
          \x20 message Inner {\n\
          \x20   int64 ival = 1;\n\
          \x20 }\n\
          \x20 map<int32, string> my_map = 2;\n\
          }\n") =
    (some ({ messageName := c!"Outer",
             messageBody := [.option { optionName := c!"(my_option).a",
                                       constant := c!"true",
                                       info := ⟨⟨[], 19, 3, 3⟩, ⟨[], 46, 3, 30⟩⟩ },
                             .message { messageName := c!"Inner",
                                        messageBody := [.field { isRepeated := false,
                                                                 isRequired := false,
                                                                 isOptional := false,
                                                                 type := c!"int64",
                                                                 fieldName := c!"ival",
                                                                 fieldNumber := c!"1",
                                                                 fieldOptions := [],
                                                                 info :=
                                                                   ⟨⟨[], 70, 5, 5⟩,
                                                                    ⟨[], 84, 5, 19⟩⟩ }],
                                        info := ⟨⟨[], 50, 4, 3⟩, ⟨[], 88, 6, 3⟩⟩ },
                             .mapField { keyType := c!"int32",
                                         type := c!"string",
                                         mapName := c!"my_map",
                                         fieldNumber := c!"2",
                                         fieldOptions := [],
                                         info := ⟨⟨[], 92, 7, 3⟩, ⟨[], 121, 7, 32⟩⟩ }],
             info := ⟨⟨[], 1, 2, 1⟩, ⟨[], 123, 8, 1⟩⟩ },
           true)) := by
  kernel_rfl

-- parsing another excerpt from the official reference
example :
    (reads (parseMessage (cfg false false)) c!""
       c!"\n\
          message outer {\n\
          \x20 option (my_option).a = true;\n\
          \x20 message inner {\n\
          \x20   int64 ival = 1;\n\
          \x20 }\n\
          \x20 repeated inner inner_message = 2;\n\
          \x20 EnumAllowingAlias enum_field =3;\n\
          \x20 map<int32, string> my_map = 4;\n\
          }\n") =
    (some ({ messageName := c!"outer",
             messageBody := [.option { optionName := c!"(my_option).a",
                                       constant := c!"true",
                                       info := ⟨⟨[], 19, 3, 3⟩, ⟨[], 46, 3, 30⟩⟩ },
                             .message { messageName := c!"inner",
                                        messageBody := [.field { isRepeated := false,
                                                                 isRequired := false,
                                                                 isOptional := false,
                                                                 type := c!"int64",
                                                                 fieldName := c!"ival",
                                                                 fieldNumber := c!"1",
                                                                 fieldOptions := [],
                                                                 info :=
                                                                   ⟨⟨[], 70, 5, 5⟩,
                                                                    ⟨[], 84, 5, 19⟩⟩ }],
                                        info := ⟨⟨[], 50, 4, 3⟩, ⟨[], 88, 6, 3⟩⟩ },
                             .field { isRepeated := true,
                                      isRequired := false,
                                      isOptional := false,
                                      type := c!"inner",
                                      fieldName := c!"inner_message",
                                      fieldNumber := c!"2",
                                      fieldOptions := [],
                                      info := ⟨⟨[], 92, 7, 3⟩, ⟨[], 124, 7, 35⟩⟩ },
                             .field { isRepeated := false,
                                      isRequired := false,
                                      isOptional := false,
                                      type := c!"EnumAllowingAlias",
                                      fieldName := c!"enum_field",
                                      fieldNumber := c!"3",
                                      fieldOptions := [],
                                      info := ⟨⟨[], 128, 8, 3⟩, ⟨[], 159, 8, 34⟩⟩ },
                             .mapField { keyType := c!"int32",
                                         type := c!"string",
                                         mapName := c!"my_map",
                                         fieldNumber := c!"4",
                                         fieldOptions := [],
                                         info := ⟨⟨[], 163, 9, 3⟩, ⟨[], 192, 9, 32⟩⟩ }],
             info := ⟨⟨[], 1, 2, 1⟩, ⟨[], 194, 10, 1⟩⟩ },
           true)) := by
  kernel_rfl

-- parsing an empty MessageBody
example :
    (reads (parseMessage (cfg false false)) c!"" c!"\nmessage Outer {\n}\n") =
    (some ({ messageName := c!"Outer",
             messageBody := [],
             info := ⟨⟨[], 1, 2, 1⟩, ⟨[], 17, 3, 1⟩⟩ },
           true)) := by
  kernel_rfl

-- parsing comments
example :
    (reads (parseMessage (cfg false false)) c!""
       c!"\n\
          message outer {\n\
          \x20 // option\n\
          \x20 option (my_option).a = true;\n\
          \x20 // message\n\
          \x20 message inner {   // Level 2\n\
          \x20   int64 ival = 1;\n\
          \x20 }\n\
          \x20 // field\n\
          \x20 repeated inner inner_message = 2;\n\
          \x20 // enum\n\
          \x20 enum EnumAllowingAlias {\n\
          \x20   option allow_alias = true;\n\
          \x20 }\n\
          \x20 EnumAllowingAlias enum_field =3;\n\
          \x20 // map\n\
          \x20 map<int32, string> my_map = 4;\n\
          \x20 // oneof\n\
          \x20 oneof foo {\n\
          \x20   string name = 5;\n\
          \x20   SubMessage sub_message = 6;\n\
          \x20 }\n\
          \x20 // reserved\n\
          \x20 reserved \"bar\";\n\
          }\n") =
    (some ({ messageName := c!"outer",
             messageBody := [.option { optionName := c!"(my_option).a",
                                       constant := c!"true",
                                       comments := [⟨c!"// option",
                                                     ⟨⟨[], 19, 3, 3⟩, ⟨[], 27, 3, 11⟩⟩⟩],
                                       info := ⟨⟨[], 31, 4, 3⟩, ⟨[], 58, 4, 30⟩⟩ },
                             .message { messageName := c!"inner",
                                        messageBody := [.field { isRepeated := false,
                                                                 isRequired := false,
                                                                 isOptional := false,
                                                                 type := c!"int64",
                                                                 fieldName := c!"ival",
                                                                 fieldNumber := c!"1",
                                                                 fieldOptions := [],
                                                                 info :=
                                                                   ⟨⟨[], 108, 7, 5⟩,
                                                                    ⟨[], 122, 7, 19⟩⟩ }],
                                        comments := [⟨c!"// message",
                                                      ⟨⟨[], 62, 5, 3⟩, ⟨[], 71, 5, 12⟩⟩⟩],
                                        info := ⟨⟨[], 75, 6, 3⟩, ⟨[], 126, 8, 3⟩⟩,
                                        inlineCommentBehindLeftCurly :=
                                          (some ⟨c!"// Level 2",
                                                 ⟨⟨[], 93, 6, 21⟩, ⟨[], 102, 6, 30⟩⟩⟩) },
                             .field { isRepeated := true,
                                      isRequired := false,
                                      isOptional := false,
                                      type := c!"inner",
                                      fieldName := c!"inner_message",
                                      fieldNumber := c!"2",
                                      fieldOptions := [],
                                      comments := [⟨c!"// field",
                                                    ⟨⟨[], 130, 9, 3⟩, ⟨[], 137, 9, 10⟩⟩⟩],
                                      info := ⟨⟨[], 141, 10, 3⟩, ⟨[], 173, 10, 35⟩⟩ },
                             .enum { enumName := c!"EnumAllowingAlias",
                                     enumBody := [.option { optionName := c!"allow_alias",
                                                            constant := c!"true",
                                                            info := ⟨⟨[], 216, 13, 5⟩,
                                                                     ⟨[], 241, 13, 30⟩⟩ }],
                                     comments := [⟨c!"// enum",
                                                   ⟨⟨[], 177, 11, 3⟩, ⟨[], 183, 11, 9⟩⟩⟩],
                                     info := ⟨⟨[], 187, 12, 3⟩, ⟨[], 245, 14, 3⟩⟩ },
                             .field { isRepeated := false,
                                      isRequired := false,
                                      isOptional := false,
                                      type := c!"EnumAllowingAlias",
                                      fieldName := c!"enum_field",
                                      fieldNumber := c!"3",
                                      fieldOptions := [],
                                      info := ⟨⟨[], 249, 15, 3⟩, ⟨[], 280, 15, 34⟩⟩ },
                             .mapField { keyType := c!"int32",
                                         type := c!"string",
                                         mapName := c!"my_map",
                                         fieldNumber := c!"4",
                                         fieldOptions := [],
                                         comments := [⟨c!"// map",
                                                       ⟨⟨[], 284, 16, 3⟩, ⟨[], 289, 16, 8⟩⟩⟩],
                                         info := ⟨⟨[], 293, 17, 3⟩, ⟨[], 322, 17, 32⟩⟩ },
                             .oneof { oneofFields := [{ type := c!"string",
                                                        fieldName := c!"name",
                                                        fieldNumber := c!"5",
                                                        fieldOptions := [],
                                                        info := ⟨⟨[], 353, 20, 5⟩,
                                                                 ⟨[], 368, 20, 20⟩⟩ },
                                                      { type := c!"SubMessage",
                                                        fieldName := c!"sub_message",
                                                        fieldNumber := c!"6",
                                                        fieldOptions := [],
                                                        info := ⟨⟨[], 374, 21, 5⟩,
                                                                 ⟨[], 400, 21, 31⟩⟩ }],
                                      oneofName := c!"foo",
                                      options := [],
                                      comments := [⟨c!"// oneof",
                                                    ⟨⟨[], 326, 18, 3⟩, ⟨[], 333, 18, 10⟩⟩⟩],
                                      info := ⟨⟨[], 337, 19, 3⟩, ⟨[], 404, 22, 3⟩⟩ },
                             .reserved { ranges := [],
                                         fieldNames := [c!"\"bar\""],
                                         comments := [⟨c!"// reserved",
                                                       ⟨⟨[], 408, 23, 3⟩, ⟨[], 418, 23, 13⟩⟩⟩],
                                         info := ⟨⟨[], 422, 24, 3⟩, ⟨[], 436, 24, 17⟩⟩ }],
             info := ⟨⟨[], 1, 2, 1⟩, ⟨[], 438, 25, 1⟩⟩ },
           true)) := by
  kernel_rfl

-- parsing inline comments
example :
    (reads (parseMessage (cfg false false)) c!""
       c!"\n\
          message SearchRequest {\n\
          \x20 string query = 1;\n\
          \x20 int32 page_number = 2;  // Which page number do we want?\n\
          \x20 int32 result_per_page = 3;  // Number of results to return per page.\n\
          \x20 enum EnumAllowingAlias {\n\
          \x20   option allow_alias = true;\n\
          \x20 } // Alias\n\
          }\n") =
    (some ({ messageName := c!"SearchRequest",
             messageBody := [.field { isRepeated := false,
                                      isRequired := false,
                                      isOptional := false,
                                      type := c!"string",
                                      fieldName := c!"query",
                                      fieldNumber := c!"1",
                                      fieldOptions := [],
                                      info := ⟨⟨[], 27, 3, 3⟩, ⟨[], 43, 3, 19⟩⟩ },
                             .field { isRepeated := false,
                                      isRequired := false,
                                      isOptional := false,
                                      type := c!"int32",
                                      fieldName := c!"page_number",
                                      fieldNumber := c!"2",
                                      fieldOptions := [],
                                      inlineComment := (some ⟨c!"// Which page number do we want?",
                                                              ⟨⟨[], 71, 4, 27⟩, ⟨[], 102, 4, 58⟩⟩⟩),
                                      info := ⟨⟨[], 47, 4, 3⟩, ⟨[], 68, 4, 24⟩⟩ },
                             .field { isRepeated := false,
                                      isRequired := false,
                                      isOptional := false,
                                      type := c!"int32",
                                      fieldName := c!"result_per_page",
                                      fieldNumber := c!"3",
                                      fieldOptions := [],
                                      inlineComment := (some ⟨c!"// Number of results to return \
                                                                 per page.",
                                                              ⟨⟨[], 134, 5, 31⟩, ⟨[], 173, 5, 70⟩⟩⟩),
                                      info := ⟨⟨[], 106, 5, 3⟩, ⟨[], 131, 5, 28⟩⟩ },
                             .enum { enumName := c!"EnumAllowingAlias",
                                     enumBody := [.option { optionName := c!"allow_alias",
                                                            constant := c!"true",
                                                            info := ⟨⟨[], 206, 7, 5⟩,
                                                                     ⟨[], 231, 7, 30⟩⟩ }],
                                     inlineComment := (some ⟨c!"// Alias",
                                                             ⟨⟨[], 237, 8, 5⟩, ⟨[], 244, 8, 12⟩⟩⟩),
                                     info := ⟨⟨[], 177, 6, 3⟩, ⟨[], 235, 8, 3⟩⟩ }],
             info := ⟨⟨[], 1, 2, 1⟩, ⟨[], 246, 9, 1⟩⟩ },
           true)) := by
  kernel_rfl

-- skipping a last comment
example :
    (reads (parseMessage (cfg false false)) c!""
       c!"\nmessage SearchRequest {\n  string query = 1;\n  // last comment\n}\n") =
    (some ({ messageName := c!"SearchRequest",
             messageBody := [.field { isRepeated := false,
                                      isRequired := false,
                                      isOptional := false,
                                      type := c!"string",
                                      fieldName := c!"query",
                                      fieldNumber := c!"1",
                                      fieldOptions := [],
                                      info := ⟨⟨[], 27, 3, 3⟩, ⟨[], 43, 3, 19⟩⟩ }],
             info := ⟨⟨[], 1, 2, 1⟩, ⟨[], 63, 5, 1⟩⟩ },
           true)) := by
  kernel_rfl

-- parsing last comments
example :
    (reads (parseMessage (cfg false true)) c!""
       c!"\n\
          message SearchRequest {\n\
          \x20 string query = 1;\n\
          \x20 // last first comment\n\
          \x20 /* last second comment */\n\
          }\n") =
    (some ({ messageName := c!"SearchRequest",
             messageBody := [.field { isRepeated := false,
                                      isRequired := false,
                                      isOptional := false,
                                      type := c!"string",
                                      fieldName := c!"query",
                                      fieldNumber := c!"1",
                                      fieldOptions := [],
                                      info := ⟨⟨[], 27, 3, 3⟩, ⟨[], 43, 3, 19⟩⟩ },
                             .comment ⟨c!"// last first comment",
                                       ⟨⟨[], 47, 4, 3⟩, ⟨[], 67, 4, 23⟩⟩⟩,
                             .comment ⟨c!"/* last second comment */",
                                       ⟨⟨[], 71, 5, 3⟩, ⟨[], 95, 5, 27⟩⟩⟩],
             info := ⟨⟨[], 1, 2, 1⟩, ⟨[], 97, 6, 1⟩⟩ },
           true)) := by
  kernel_rfl

-- parsing an extend
example :
    (reads (parseMessage (cfg false false)) c!""
       c!"\nmessage Outer {\n  extend Foo {\n    int32 bar = 126;\n  }\n}\n") =
    (some ({ messageName := c!"Outer",
             messageBody := [.extend { messageType := c!"Foo",
                                       extendBody := [.field { isRepeated := false,
                                                               isRequired := false,
                                                               isOptional := false,
                                                               type := c!"int32",
                                                               fieldName := c!"bar",
                                                               fieldNumber := c!"126",
                                                               fieldOptions := [],
                                                               info :=
                                                                 ⟨⟨[], 36, 4, 5⟩, ⟨[], 51, 4, 20⟩⟩ }],
                                       info := ⟨⟨[], 19, 3, 3⟩, ⟨[], 55, 5, 3⟩⟩ }],
             info := ⟨⟨[], 1, 2, 1⟩, ⟨[], 57, 6, 1⟩⟩ },
           true)) := by
  kernel_rfl

-- parsing an excerpt from the official reference(proto2)
example :
    (reads (parseMessage (cfg false false)) c!""
       c!"\n\
          message Outer {\n\
          \x20 option (my_option).a = true;\n\
          \x20 message Inner {   // Level 2\n\
          \x20   required int64 ival = 1;\n\
          \x20 }\n\
          \x20 map<int32, string> my_map = 2;\n\
          \x20 extensions 20 to 30;\n\
          }") =
    (some ({ messageName := c!"Outer",
             messageBody := [.option { optionName := c!"(my_option).a",
                                       constant := c!"true",
                                       info := ⟨⟨[], 19, 3, 3⟩, ⟨[], 46, 3, 30⟩⟩ },
                             .message { messageName := c!"Inner",
                                        messageBody := [.field { isRepeated := false,
                                                                 isRequired := true,
                                                                 isOptional := false,
                                                                 type := c!"int64",
                                                                 fieldName := c!"ival",
                                                                 fieldNumber := c!"1",
                                                                 fieldOptions := [],
                                                                 info :=
                                                                   ⟨⟨[], 83, 5, 5⟩,
                                                                    ⟨[], 106, 5, 28⟩⟩ }],
                                        info := ⟨⟨[], 50, 4, 3⟩, ⟨[], 110, 6, 3⟩⟩,
                                        inlineCommentBehindLeftCurly :=
                                          (some ⟨c!"// Level 2",
                                                 ⟨⟨[], 68, 4, 21⟩, ⟨[], 77, 4, 30⟩⟩⟩) },
                             .mapField { keyType := c!"int32",
                                         type := c!"string",
                                         mapName := c!"my_map",
                                         fieldNumber := c!"2",
                                         fieldOptions := [],
                                         info := ⟨⟨[], 114, 7, 3⟩, ⟨[], 143, 7, 32⟩⟩ },
                             .extensions { ranges := [{ begin_ := c!"20", end_ := c!"30" }],
                                           declarations := [],
                                           info := ⟨⟨[], 147, 8, 3⟩, ⟨[], 166, 8, 22⟩⟩ }],
             info := ⟨⟨[], 1, 2, 1⟩, ⟨[], 168, 9, 1⟩⟩ },
           true)) := by
  kernel_rfl

-- parsing a block followed by semicolon
example :
    (reads (parseMessage (cfg true false)) c!"" c!"\nmessage Outer {\n  message Inner {};\n};\n")
      =
    (some ({ messageName := c!"Outer",
             messageBody := [.message { messageName := c!"Inner",
                                        messageBody := [],
                                        info := ⟨⟨[], 19, 3, 3⟩, ⟨[], 35, 3, 19⟩⟩ }],
             info := ⟨⟨[], 1, 2, 1⟩, ⟨[], 38, 4, 2⟩⟩ },
           true)) := by
  kernel_rfl

-- set LastPos to the correct position when a semicolon doesn't follow the last block
example :
    (reads (parseMessage (cfg true false)) c!"" c!"\nmessage Outer {\n  message Inner {}\n}\n") =
    (some ({ messageName := c!"Outer",
             messageBody := [.message { messageName := c!"Inner",
                                        messageBody := [],
                                        info := ⟨⟨[], 19, 3, 3⟩, ⟨[], 34, 3, 18⟩⟩ }],
             info := ⟨⟨[], 1, 2, 1⟩, ⟨[], 36, 4, 1⟩⟩ },
           true)) := by
  kernel_rfl

/-! ## oneof_test.go -/

-- parsing an empty
example :
    (fails (parseOneof (cfg false false)) c!"" c!"") =
    (true) := by
  kernel_rfl

-- parsing an invalid; without oneof
example :
    (fails (parseOneof (cfg false false)) c!""
       c!"foo {\n    string name = 4;\n    SubMessage sub_message = 9;\n}\n") =
    (true) := by
  kernel_rfl

-- parsing an invalid; without }
example :
    (fails (parseOneof (cfg false false)) c!""
       c!"oneof foo {\n    string name = 4;\n    SubMessage sub_message = 9;\n") =
    (true) := by
  kernel_rfl

-- parsing an excerpt from the official reference
example :
    (reads (parseOneof (cfg false false)) c!""
       c!"oneof foo {\n    string name = 4;\n    SubMessage sub_message = 9;\n}\n") =
    (some ({ oneofFields := [{ type := c!"string",
                               fieldName := c!"name",
                               fieldNumber := c!"4",
                               fieldOptions := [],
                               info := ⟨⟨[], 16, 2, 5⟩, ⟨[], 31, 2, 20⟩⟩ },
                             { type := c!"SubMessage",
                               fieldName := c!"sub_message",
                               fieldNumber := c!"9",
                               fieldOptions := [],
                               info := ⟨⟨[], 37, 3, 5⟩, ⟨[], 63, 3, 31⟩⟩ }],
             oneofName := c!"foo",
             options := [],
             info := ⟨⟨[], 0, 1, 1⟩, ⟨[], 65, 4, 1⟩⟩ },
           true)) := by
  kernel_rfl

-- parsing an emptyStatement
example :
    (reads (parseOneof (cfg false false)) c!""
       c!"oneof foo {\n    string name = 4;\n    ;\n    SubMessage sub_message = 9;\n}\n") =
    (some ({ oneofFields := [{ type := c!"string",
                               fieldName := c!"name",
                               fieldNumber := c!"4",
                               fieldOptions := [],
                               info := ⟨⟨[], 16, 2, 5⟩, ⟨[], 31, 2, 20⟩⟩ },
                             { type := c!"SubMessage",
                               fieldName := c!"sub_message",
                               fieldNumber := c!"9",
                               fieldOptions := [],
                               info := ⟨⟨[], 43, 4, 5⟩, ⟨[], 69, 4, 31⟩⟩ }],
             oneofName := c!"foo",
             options := [],
             info := ⟨⟨[], 0, 1, 1⟩, ⟨[], 71, 5, 1⟩⟩ },
           true)) := by
  kernel_rfl

-- parsing comments
example :
    (reads (parseOneof (cfg false false)) c!""
       c!"oneof foo {\n\
          \x20   // name\n\
          \x20   string name = 4;\n\
          \x20   // sub_message\n\
          \x20   SubMessage sub_message = 9;\n\
          }\n") =
    (some ({ oneofFields := [{ type := c!"string",
                               fieldName := c!"name",
                               fieldNumber := c!"4",
                               fieldOptions := [],
                               comments := [⟨c!"// name", ⟨⟨[], 16, 2, 5⟩, ⟨[], 22, 2, 11⟩⟩⟩],
                               info := ⟨⟨[], 28, 3, 5⟩, ⟨[], 43, 3, 20⟩⟩ },
                             { type := c!"SubMessage",
                               fieldName := c!"sub_message",
                               fieldNumber := c!"9",
                               fieldOptions := [],
                               comments := [⟨c!"// sub_message",
                                             ⟨⟨[], 49, 4, 5⟩, ⟨[], 62, 4, 18⟩⟩⟩],
                               info := ⟨⟨[], 68, 5, 5⟩, ⟨[], 94, 5, 31⟩⟩ }],
             oneofName := c!"foo",
             options := [],
             info := ⟨⟨[], 0, 1, 1⟩, ⟨[], 96, 6, 1⟩⟩ },
           true)) := by
  kernel_rfl

-- parsing inline comments
example :
    (reads (parseOneof (cfg false false)) c!""
       c!"oneof foo { // TODO: implementation\n\
          \x20   string name = 4; // name\n\
          \x20   SubMessage sub_message = 9; // sub_message\n\
          }\n") =
    (some ({ oneofFields := [{ type := c!"string",
                               fieldName := c!"name",
                               fieldNumber := c!"4",
                               fieldOptions := [],
                               inlineComment := (some ⟨c!"// name",
                                                       ⟨⟨[], 57, 2, 22⟩, ⟨[], 63, 2, 28⟩⟩⟩),
                               info := ⟨⟨[], 40, 2, 5⟩, ⟨[], 55, 2, 20⟩⟩ },
                             { type := c!"SubMessage",
                               fieldName := c!"sub_message",
                               fieldNumber := c!"9",
                               fieldOptions := [],
                               inlineComment := (some ⟨c!"// sub_message",
                                                       ⟨⟨[], 97, 3, 33⟩, ⟨[], 110, 3, 46⟩⟩⟩),
                               info := ⟨⟨[], 69, 3, 5⟩, ⟨[], 95, 3, 31⟩⟩ }],
             oneofName := c!"foo",
             options := [],
             info := ⟨⟨[], 0, 1, 1⟩, ⟨[], 112, 4, 1⟩⟩,
             inlineCommentBehindLeftCurly := (some ⟨c!"// TODO: implementation",
                                                    ⟨⟨[], 12, 1, 13⟩, ⟨[], 34, 1, 35⟩⟩⟩) },
           true)) := by
  kernel_rfl

-- parsing a block followed by semicolon
example :
    (reads (parseOneof (cfg true false)) c!"" c!"oneof foo {\n    string name = 4;\n};\n") =
    (some ({ oneofFields := [{ type := c!"string",
                               fieldName := c!"name",
                               fieldNumber := c!"4",
                               fieldOptions := [],
                               info := ⟨⟨[], 16, 2, 5⟩, ⟨[], 31, 2, 20⟩⟩ }],
             oneofName := c!"foo",
             options := [],
             info := ⟨⟨[], 0, 1, 1⟩, ⟨[], 34, 3, 2⟩⟩ },
           true)) := by
  kernel_rfl

-- set LastPos to the correct position when a semicolon doesn't follow the last block
example :
    (reads (parseOneof (cfg true false)) c!"" c!"oneof foo {\n    string name = 4;\n}\n") =
    (some ({ oneofFields := [{ type := c!"string",
                               fieldName := c!"name",
                               fieldNumber := c!"4",
                               fieldOptions := [],
                               info := ⟨⟨[], 16, 2, 5⟩, ⟨[], 31, 2, 20⟩⟩ }],
             oneofName := c!"foo",
             options := [],
             info := ⟨⟨[], 0, 1, 1⟩, ⟨[], 33, 3, 1⟩⟩ },
           true)) := by
  kernel_rfl

-- accept options. See https://github.com/yoheimuta/go-protoparser/issues/39
example :
    (reads (parseOneof (cfg true false)) c!""
       c!"oneof something {\n\
          \x20 option (validator.oneof) = {required: true};\n\
          \x20 uint32 three_int = 5 [(validator.field) = {int_gt: 20}];\n\
          \x20 uint32 four_int = 6 [(validator.field) = {int_gt: 100}];\n\
          \x20 string five_regex = 7 [(validator.field) = {regex: \"^[a-z]{2,5}$\"}];\n\
          }\n") =
    (some ({ oneofFields := [{ type := c!"uint32",
                               fieldName := c!"three_int",
                               fieldNumber := c!"5",
                               fieldOptions := [{ optionName := c!"(validator.field)",
                                                  constant := c!"{int_gt:20}" }],
                               info := ⟨⟨[], 67, 3, 3⟩, ⟨[], 122, 3, 58⟩⟩ },
                             { type := c!"uint32",
                               fieldName := c!"four_int",
                               fieldNumber := c!"6",
                               fieldOptions := [{ optionName := c!"(validator.field)",
                                                  constant := c!"{int_gt:100}" }],
                               info := ⟨⟨[], 126, 4, 3⟩, ⟨[], 181, 4, 58⟩⟩ },
                             { type := c!"string",
                               fieldName := c!"five_regex",
                               fieldNumber := c!"7",
                               fieldOptions := [{ optionName := c!"(validator.field)",
                                                  constant := c!"{regex:\"^[a-z]{2,5}$\"}" }],
                               info := ⟨⟨[], 185, 5, 3⟩, ⟨[], 252, 5, 70⟩⟩ }],
             oneofName := c!"something",
             options := [{ optionName := c!"(validator.oneof)",
                           constant := c!"{required:true}",
                           info := ⟨⟨[], 20, 2, 3⟩, ⟨[], 63, 2, 46⟩⟩ }],
             info := ⟨⟨[], 0, 1, 1⟩, ⟨[], 254, 6, 1⟩⟩ },
           true)) := by
  kernel_rfl

-- accept a simple option without a permissive option. See https://github.com/yoheimuta/go-protoparser/issues/57
example :
    (reads (parseOneof (cfg false false)) c!""
       c!"oneof something {\n  option (my_option).a = true;\n}\n") =
    (some ({ oneofFields := [],
             oneofName := c!"something",
             options := [{ optionName := c!"(my_option).a",
                           constant := c!"true",
                           info := ⟨⟨[], 20, 2, 3⟩, ⟨[], 47, 2, 30⟩⟩ }],
             info := ⟨⟨[], 0, 1, 1⟩, ⟨[], 49, 3, 1⟩⟩ },
           true)) := by
  kernel_rfl

/-! ## service_test.go -/

-- parsing an empty
example :
    (fails (parseService (cfg false false)) c!"" c!"") =
    (true) := by
  kernel_rfl

-- parsing an excerpt from the official reference
example :
    (reads (parseService (cfg false false)) c!""
       c!"\nservice SearchService {\n  rpc Search (SearchRequest) returns (SearchResponse);\n}\n")
      =
    (some ({ serviceName := c!"SearchService",
             serviceBody := [.rpc { rpcName := c!"Search",
                                    rpcRequest := { isStream := false,
                                                    messageType := c!"SearchRequest",
                                                    info := ⟨⟨[], 38, 3, 14⟩, ⟨[], 52, 3, 28⟩⟩ },
                                    rpcResponse := { isStream := false,
                                                     messageType := c!"SearchResponse",
                                                     info := ⟨⟨[], 62, 3, 38⟩, ⟨[], 77, 3, 53⟩⟩ },
                                    options := [],
                                    info := ⟨⟨[], 27, 3, 3⟩, ⟨[], 78, 3, 54⟩⟩ }],
             info := ⟨⟨[], 1, 2, 1⟩, ⟨[], 80, 4, 1⟩⟩ },
           true)) := by
  kernel_rfl

-- parsing a rpc option
example :
    (reads (parseService (cfg false false)) c!""
       c!"\n\
          service SearchService {\n\
          \x20 rpc Search (SearchRequest) returns (SearchResponse) { option (my_option).a = true\
          ; }\n\
          }\n") =
    (some ({ serviceName := c!"SearchService",
             serviceBody := [.rpc { rpcName := c!"Search",
                                    rpcRequest := { isStream := false,
                                                    messageType := c!"SearchRequest",
                                                    info := ⟨⟨[], 38, 3, 14⟩, ⟨[], 52, 3, 28⟩⟩ },
                                    rpcResponse := { isStream := false,
                                                     messageType := c!"SearchResponse",
                                                     info := ⟨⟨[], 62, 3, 38⟩, ⟨[], 77, 3, 53⟩⟩ },
                                    options := [{ optionName := c!"(my_option).a",
                                                  constant := c!"true",
                                                  info := ⟨⟨[], 81, 3, 57⟩, ⟨[], 108, 3, 84⟩⟩ }],
                                    info := ⟨⟨[], 27, 3, 3⟩, ⟨[], 110, 3, 86⟩⟩ }],
             info := ⟨⟨[], 1, 2, 1⟩, ⟨[], 112, 4, 1⟩⟩ },
           true)) := by
  kernel_rfl

-- parsing multiple rpc options
example :
    (reads (parseService (cfg false false)) c!""
       c!"\n\
          service SearchService {\n\
          \x20 rpc Search (SearchRequest) returns (SearchResponse) { \n\
          \toption (my_option).a = true; \n\
          \toption (my_option).b = false;\n\
          \x20 }\n\
          }\n") =
    (some ({ serviceName := c!"SearchService",
             serviceBody := [.rpc { rpcName := c!"Search",
                                    rpcRequest := { isStream := false,
                                                    messageType := c!"SearchRequest",
                                                    info := ⟨⟨[], 38, 3, 14⟩, ⟨[], 52, 3, 28⟩⟩ },
                                    rpcResponse := { isStream := false,
                                                     messageType := c!"SearchResponse",
                                                     info := ⟨⟨[], 62, 3, 38⟩, ⟨[], 77, 3, 53⟩⟩ },
                                    options := [{ optionName := c!"(my_option).a",
                                                  constant := c!"true",
                                                  info := ⟨⟨[], 83, 4, 2⟩, ⟨[], 110, 4, 29⟩⟩ },
                                                { optionName := c!"(my_option).b",
                                                  constant := c!"false",
                                                  info := ⟨⟨[], 114, 5, 2⟩, ⟨[], 142, 5, 30⟩⟩ }],
                                    info := ⟨⟨[], 27, 3, 3⟩, ⟨[], 146, 6, 3⟩⟩ }],
             info := ⟨⟨[], 1, 2, 1⟩, ⟨[], 148, 7, 1⟩⟩ },
           true)) := by
  kernel_rfl

-- parsing rpcs
example :
    (reads (parseService (cfg false false)) c!""
       c!"\n\
          // ItemService is a service to manage items.\n\
          service ItemService {\n\
          \x20   // CreateUserItem is a method to create a user's item.\n\
          \x20   rpc CreateUserItem(CreateUserItemRequest) returns (aggregatespb.UserItemAggrega\
          te) {}\n\
          \n\
          \x20   // UpdateUserItem is a method to update a user's item.\n\
          \x20   rpc UpdateUserItem(UpdateUserItemRequest) returns (entitiespb.UserItem) {}\n\
          }\n") =
    (some ({ serviceName := c!"ItemService",
             serviceBody := [.rpc { rpcName := c!"CreateUserItem",
                                    rpcRequest := { isStream := false,
                                                    messageType := c!"CreateUserItemRequest",
                                                    info := ⟨⟨[], 149, 5, 23⟩, ⟨[], 171, 5, 45⟩⟩ },
                                    rpcResponse := { isStream := false,
                                                     messageType :=
                                                       c!"aggregatespb.UserItemAggregate",
                                                     info := ⟨⟨[], 181, 5, 55⟩, ⟨[], 212, 5, 86⟩⟩ },
                                    options := [],
                                    comments := [⟨c!"// CreateUserItem is a method to create a u\
                                                     ser's item.",
                                                  ⟨⟨[], 72, 4, 5⟩, ⟨[], 125, 4, 58⟩⟩⟩],
                                    info := ⟨⟨[], 131, 5, 5⟩, ⟨[], 215, 5, 89⟩⟩ },
                             .rpc { rpcName := c!"UpdateUserItem",
                                    rpcRequest := { isStream := false,
                                                    messageType := c!"UpdateUserItemRequest",
                                                    info := ⟨⟨[], 299, 8, 23⟩, ⟨[], 321, 8, 45⟩⟩ },
                                    rpcResponse := { isStream := false,
                                                     messageType := c!"entitiespb.UserItem",
                                                     info := ⟨⟨[], 331, 8, 55⟩, ⟨[], 351, 8, 75⟩⟩ },
                                    options := [],
                                    comments := [⟨c!"// UpdateUserItem is a method to update a u\
                                                     ser's item.",
                                                  ⟨⟨[], 222, 7, 5⟩, ⟨[], 275, 7, 58⟩⟩⟩],
                                    info := ⟨⟨[], 281, 8, 5⟩, ⟨[], 354, 8, 78⟩⟩ }],
             info := ⟨⟨[], 46, 3, 1⟩, ⟨[], 356, 9, 1⟩⟩ },
           true)) := by
  kernel_rfl

-- parsing a inline comment
example :
    (reads (parseService (cfg false false)) c!""
       c!"\n\
          service SearchService { // TODO: Search is not implemented yet.\n\
          \x20 rpc Search (SearchRequest) returns (SearchResponse); // TODO: implementation\n\
          }\n") =
    (some ({ serviceName := c!"SearchService",
             serviceBody := [.rpc { rpcName := c!"Search",
                                    rpcRequest := { isStream := false,
                                                    messageType := c!"SearchRequest",
                                                    info := ⟨⟨[], 78, 3, 14⟩, ⟨[], 92, 3, 28⟩⟩ },
                                    rpcResponse := { isStream := false,
                                                     messageType := c!"SearchResponse",
                                                     info := ⟨⟨[], 102, 3, 38⟩, ⟨[], 117, 3, 53⟩⟩ },
                                    options := [],
                                    inlineComment := (some ⟨c!"// TODO: implementation",
                                                            ⟨⟨[], 120, 3, 56⟩, ⟨[], 142, 3, 78⟩⟩⟩),
                                    info := ⟨⟨[], 67, 3, 3⟩, ⟨[], 118, 3, 54⟩⟩ }],
             info := ⟨⟨[], 1, 2, 1⟩, ⟨[], 144, 4, 1⟩⟩,
             inlineCommentBehindLeftCurly := (some ⟨c!"// TODO: Search is not implemented yet.",
                                                    ⟨⟨[], 25, 2, 25⟩, ⟨[], 63, 2, 63⟩⟩⟩) },
           true)) := by
  kernel_rfl

-- skipping a last comment
example :
    (reads (parseService (cfg false false)) c!""
       c!"\n\
          service SearchService {\n\
          \x20 rpc Search (SearchRequest) returns (SearchResponse);\n\
          \x20 // last comment\n\
          }\n") =
    (some ({ serviceName := c!"SearchService",
             serviceBody := [.rpc { rpcName := c!"Search",
                                    rpcRequest := { isStream := false,
                                                    messageType := c!"SearchRequest",
                                                    info := ⟨⟨[], 38, 3, 14⟩, ⟨[], 52, 3, 28⟩⟩ },
                                    rpcResponse := { isStream := false,
                                                     messageType := c!"SearchResponse",
                                                     info := ⟨⟨[], 62, 3, 38⟩, ⟨[], 77, 3, 53⟩⟩ },
                                    options := [],
                                    info := ⟨⟨[], 27, 3, 3⟩, ⟨[], 78, 3, 54⟩⟩ }],
             info := ⟨⟨[], 1, 2, 1⟩, ⟨[], 98, 5, 1⟩⟩ },
           true)) := by
  kernel_rfl

-- parsing last comments
example :
    (reads (parseService (cfg false true)) c!""
       c!"\n\
          service SearchService {\n\
          \x20 rpc Search (SearchRequest) returns (SearchResponse);\n\
          \x20 // last first comment\n\
          \x20 /* last second comment */\n\
          }\n") =
    (some ({ serviceName := c!"SearchService",
             serviceBody := [.rpc { rpcName := c!"Search",
                                    rpcRequest := { isStream := false,
                                                    messageType := c!"SearchRequest",
                                                    info := ⟨⟨[], 38, 3, 14⟩, ⟨[], 52, 3, 28⟩⟩ },
                                    rpcResponse := { isStream := false,
                                                     messageType := c!"SearchResponse",
                                                     info := ⟨⟨[], 62, 3, 38⟩, ⟨[], 77, 3, 53⟩⟩ },
                                    options := [],
                                    info := ⟨⟨[], 27, 3, 3⟩, ⟨[], 78, 3, 54⟩⟩ },
                             .comment ⟨c!"// last first comment",
                                       ⟨⟨[], 82, 4, 3⟩, ⟨[], 102, 4, 23⟩⟩⟩,
                             .comment ⟨c!"/* last second comment */",
                                       ⟨⟨[], 106, 5, 3⟩, ⟨[], 130, 5, 27⟩⟩⟩],
             info := ⟨⟨[], 1, 2, 1⟩, ⟨[], 132, 6, 1⟩⟩ },
           true)) := by
  kernel_rfl

-- parsing a block followed by semicolon
example :
    (reads (parseService (cfg true false)) c!""
       c!"\n\
          service SearchService {\n\
          \x20 rpc Search (SearchRequest) returns (SearchResponse) {};\n\
          };\n") =
    (some ({ serviceName := c!"SearchService",
             serviceBody := [.rpc { rpcName := c!"Search",
                                    rpcRequest := { isStream := false,
                                                    messageType := c!"SearchRequest",
                                                    info := ⟨⟨[], 38, 3, 14⟩, ⟨[], 52, 3, 28⟩⟩ },
                                    rpcResponse := { isStream := false,
                                                     messageType := c!"SearchResponse",
                                                     info := ⟨⟨[], 62, 3, 38⟩, ⟨[], 77, 3, 53⟩⟩ },
                                    options := [],
                                    info := ⟨⟨[], 27, 3, 3⟩, ⟨[], 81, 3, 57⟩⟩ }],
             info := ⟨⟨[], 1, 2, 1⟩, ⟨[], 84, 4, 2⟩⟩ },
           true)) := by
  kernel_rfl

-- set LastPos to the correct position when a semicolon doesn't follow the last block
example :
    (reads (parseService (cfg true false)) c!""
       c!"\n\
          service SearchService {\n\
          \x20 rpc Search (SearchRequest) returns (SearchResponse) {}\n\
          }\n") =
    (some ({ serviceName := c!"SearchService",
             serviceBody := [.rpc { rpcName := c!"Search",
                                    rpcRequest := { isStream := false,
                                                    messageType := c!"SearchRequest",
                                                    info := ⟨⟨[], 38, 3, 14⟩, ⟨[], 52, 3, 28⟩⟩ },
                                    rpcResponse := { isStream := false,
                                                     messageType := c!"SearchResponse",
                                                     info := ⟨⟨[], 62, 3, 38⟩, ⟨[], 77, 3, 53⟩⟩ },
                                    options := [],
                                    info := ⟨⟨[], 27, 3, 3⟩, ⟨[], 80, 3, 56⟩⟩ }],
             info := ⟨⟨[], 1, 2, 1⟩, ⟨[], 82, 4, 1⟩⟩ },
           true)) := by
  kernel_rfl

-- parsing the rpc with a trailing comment followd by the left curly
example :
    (reads (parseService (cfg false false)) c!""
       c!"\n\
          service SearchService {\n\
          \x20 rpc GetAll(GetRequest) returns(GetReply) { // get the global address table\n\
          \x20   option(requestreply.Nats).Subject = \"get.addrs\";\n\
          \x20 }\n\
          }\n") =
    (some ({ serviceName := c!"SearchService",
             serviceBody := [.rpc { rpcName := c!"GetAll",
                                    rpcRequest := { isStream := false,
                                                    messageType := c!"GetRequest",
                                                    info := ⟨⟨[], 37, 3, 13⟩, ⟨[], 48, 3, 24⟩⟩ },
                                    rpcResponse := { isStream := false,
                                                     messageType := c!"GetReply",
                                                     info := ⟨⟨[], 57, 3, 33⟩, ⟨[], 66, 3, 42⟩⟩ },
                                    options := [{ optionName := c!"(requestreply.Nats).Subject",
                                                  constant := c!"\"get.addrs\"",
                                                  info := ⟨⟨[], 106, 4, 5⟩, ⟨[], 153, 4, 52⟩⟩ }],
                                    info := ⟨⟨[], 27, 3, 3⟩, ⟨[], 157, 5, 3⟩⟩,
                                    inlineCommentBehindLeftCurly := (some
                                                                       ⟨c!"// get the global add\
                                                                           ress table",
                                                                        ⟨⟨[], 70, 3, 46⟩,
                                                                         ⟨[], 100, 3, 76⟩⟩⟩) }],
             info := ⟨⟨[], 1, 2, 1⟩, ⟨[], 159, 6, 1⟩⟩ },
           true)) := by
  kernel_rfl

-- parsing the rpc with comments interleaved in the middle
example :
    (reads (parseService (cfg false false)) c!""
       c!"\n\
          service SearchService {\n\
          \x20 rpc GetAll (GetRequest) // protolint:disable:this RPC_NAMES_UPPER_CAMEL_CASE\n\
          \x20 returns /* some interleved comment */ (GetReply) /* some interleved comment2 */ {\
          \n\
          \t// option has a comment\n\
          \x20   option(requestreply.Nats).Subject = \"get.addrs\";\n\
          \x20 }\n\
          }\n") =
    (some ({ serviceName := c!"SearchService",
             serviceBody := [.rpc { rpcName := c!"GetAll",
                                    rpcRequest := { isStream := false,
                                                    messageType := c!"GetRequest",
                                                    info := ⟨⟨[], 38, 3, 14⟩, ⟨[], 49, 3, 25⟩⟩ },
                                    rpcResponse := { isStream := false,
                                                     messageType := c!"GetReply",
                                                     info := ⟨⟨[], 144, 4, 41⟩, ⟨[], 153, 4, 50⟩⟩ },
                                    options := [{ optionName := c!"(requestreply.Nats).Subject",
                                                  constant := c!"\"get.addrs\"",
                                                  info := ⟨⟨[], 217, 6, 5⟩, ⟨[], 264, 6, 52⟩⟩ }],
                                    embeddedComments := [⟨c!"// protolint:disable:this RPC_NAMES\
                                                             _UPPER_CAMEL_CASE",
                                                          ⟨⟨[], 51, 3, 27⟩, ⟨[], 102, 3, 78⟩⟩⟩,
                                                         ⟨c!"/* some interleved comment */",
                                                          ⟨⟨[], 114, 4, 11⟩, ⟨[], 142, 4, 39⟩⟩⟩,
                                                         ⟨c!"/* some interleved comment2 */",
                                                          ⟨⟨[], 155, 4, 52⟩, ⟨[], 184, 4, 81⟩⟩⟩],
                                    info := ⟨⟨[], 27, 3, 3⟩, ⟨[], 268, 7, 3⟩⟩ }],
             info := ⟨⟨[], 1, 2, 1⟩, ⟨[], 270, 8, 1⟩⟩ },
           true)) := by
  kernel_rfl

-- parsing a service with double semicolon in option
example :
    (reads (parseService (cfg false false)) c!""
       c!"\nservice MyService {\n  option(service_description) = \"description\";;\n}\n") =
    (some ({ serviceName := c!"MyService",
             serviceBody := [.option { optionName := c!"(service_description)",
                                       constant := c!"\"description\"",
                                       info := ⟨⟨[], 23, 3, 3⟩, ⟨[], 66, 3, 46⟩⟩ },
                             .emptyStatement {}],
             info := ⟨⟨[], 1, 2, 1⟩, ⟨[], 69, 4, 1⟩⟩ },
           true)) := by
  kernel_rfl

end Verif.Conformance
