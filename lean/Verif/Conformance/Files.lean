import Verif.Conformance.Basic

/-!
# The test tables of the repository: whole files, the visitor and the unordered interpreter

Generated by `conformance/gen.py`; see `Verif/Conformance/Basic.lean`.
-/

namespace Verif.Conformance
open Verif Parser

/-! ## proto_test.go -/

-- parsing an empty
example :
    (reads (parseProto (cfg false false)) c!"" c!"") =
    (some ({ syntax_ := none, edition := none, protoBody := [], metaFilename := c!"" }, true)) :=
      by
  kernel_rfl

-- parsing an excerpt from the official reference
example :
    (reads (parseProto (cfg false false)) c!"official.proto"
       c!"\n\
          syntax = \"proto3\";\n\
          import public \"other.proto\";\n\
          option java_package = \"com.example.foo\";\n\
          enum EnumAllowingAlias {\n\
          \x20 option allow_alias = true;\n\
          \x20 UNKNOWN = 0;\n\
          \x20 STARTED = 1;\n\
          \x20 RUNNING = 2 [(custom_option) = \"hello world\"];\n\
          }\n\
          message outer {\n\
          \x20 option (my_option).a = true;\n\
          \x20 message inner {\n\
          \x20   int64 ival = 1;\n\
          \x20 }\n\
          \x20 repeated inner inner_message = 2;\n\
          \x20 EnumAllowingAlias enum_field =3;\n\
          \x20 map<int32, string> my_map = 4;\n\
          }\n") =
    (some ({ syntax_ := (some { protobufVersion := c!"proto3",
                                protobufVersionQuote := c!"\"proto3\"",
                                info := ⟨⟨c!"official.proto", 1, 2, 1⟩,
                                         ⟨c!"official.proto", 18, 2, 18⟩⟩ }),
             edition := none,
             protoBody := [.importStmt { modifier := .public,
                                         location := c!"\"other.proto\"",
                                         info := ⟨⟨c!"official.proto", 20, 3, 1⟩,
                                                  ⟨c!"official.proto", 47, 3, 28⟩⟩ },
                           .option { optionName := c!"java_package",
                                     constant := c!"\"com.example.foo\"",
                                     info := ⟨⟨c!"official.proto", 49, 4, 1⟩,
                                              ⟨c!"official.proto", 88, 4, 40⟩⟩ },
                           .enum { enumName := c!"EnumAllowingAlias",
                                   enumBody := [.option { optionName := c!"allow_alias",
                                                          constant := c!"true",
                                                          info := ⟨⟨c!"official.proto", 117, 6, 3⟩,
                                                                   ⟨c!"official.proto", 142, 6,
                                                                    28⟩⟩ },
                                                .enumField { ident := c!"UNKNOWN",
                                                             number := c!"0",
                                                             enumValueOptions := [],
                                                             info := ⟨⟨c!"official.proto", 146,
                                                                       7, 3⟩,
                                                                      ⟨c!"official.proto", 157,
                                                                       7, 14⟩⟩ },
                                                .enumField { ident := c!"STARTED",
                                                             number := c!"1",
                                                             enumValueOptions := [],
                                                             info := ⟨⟨c!"official.proto", 161,
                                                                       8, 3⟩,
                                                                      ⟨c!"official.proto", 172,
                                                                       8, 14⟩⟩ },
                                                .enumField { ident := c!"RUNNING",
                                                             number := c!"2",
                                                             enumValueOptions :=
                                                               [{ optionName :=
                                                                    c!"(custom_option)",
                                                                  constant := c!"\"hello world\"" }],
                                                             info := ⟨⟨c!"official.proto", 176,
                                                                       9, 3⟩,
                                                                      ⟨c!"official.proto", 221,
                                                                       9, 48⟩⟩ }],
                                   info := ⟨⟨c!"official.proto", 90, 5, 1⟩,
                                            ⟨c!"official.proto", 223, 10, 1⟩⟩ },
                           .message { messageName := c!"outer",
                                      messageBody := [.option { optionName := c!"(my_option).a",
                                                                constant := c!"true",
                                                                info :=
                                                                  ⟨⟨c!"official.proto", 243, 12,
                                                                    3⟩,
                                                                   ⟨c!"official.proto", 270, 12,
                                                                    30⟩⟩ },
                                                      .message { messageName := c!"inner",
                                                                 messageBody :=
                                                                   [.field
                                                                      { isRepeated := false,
                                                                        isRequired := false,
                                                                        isOptional := false,
                                                                        type := c!"int64",
                                                                        fieldName := c!"ival",
                                                                        fieldNumber := c!"1",
                                                                        fieldOptions := [],
                                                                        info :=
                                                                          ⟨⟨c!"official.proto",
                                                                            294, 14, 5⟩,
                                                                           ⟨c!"official.proto",
                                                                            308, 14, 19⟩⟩ }],
                                                                 info :=
                                                                   ⟨⟨c!"official.proto", 274, 13,
                                                                     3⟩,
                                                                    ⟨c!"official.proto", 312, 15,
                                                                     3⟩⟩ },
                                                      .field { isRepeated := true,
                                                               isRequired := false,
                                                               isOptional := false,
                                                               type := c!"inner",
                                                               fieldName := c!"inner_message",
                                                               fieldNumber := c!"2",
                                                               fieldOptions := [],
                                                               info :=
                                                                 ⟨⟨c!"official.proto", 316, 16, 3⟩,
                                                                  ⟨c!"official.proto", 348, 16,
                                                                   35⟩⟩ },
                                                      .field { isRepeated := false,
                                                               isRequired := false,
                                                               isOptional := false,
                                                               type := c!"EnumAllowingAlias",
                                                               fieldName := c!"enum_field",
                                                               fieldNumber := c!"3",
                                                               fieldOptions := [],
                                                               info :=
                                                                 ⟨⟨c!"official.proto", 352, 17, 3⟩,
                                                                  ⟨c!"official.proto", 383, 17,
                                                                   34⟩⟩ },
                                                      .mapField { keyType := c!"int32",
                                                                  type := c!"string",
                                                                  mapName := c!"my_map",
                                                                  fieldNumber := c!"4",
                                                                  fieldOptions := [],
                                                                  info :=
                                                                    ⟨⟨c!"official.proto", 387,
                                                                      18, 3⟩,
                                                                     ⟨c!"official.proto", 416,
                                                                      18, 32⟩⟩ }],
                                      info := ⟨⟨c!"official.proto", 225, 11, 1⟩,
                                               ⟨c!"official.proto", 418, 19, 1⟩⟩ }],
             metaFilename := c!"official.proto" },
           true)) := by
  kernel_rfl

-- parsing a service
example :
    (reads (parseProto (cfg false false)) c!"service.proto"
       c!"\n\
          syntax = \"proto3\";\n\
          service SearchService {\n\
          \x20 rpc Search (SearchRequest) returns (SearchResponse);\n\
          }\n") =
    (some ({ syntax_ := (some { protobufVersion := c!"proto3",
                                protobufVersionQuote := c!"\"proto3\"",
                                info := ⟨⟨c!"service.proto", 1, 2, 1⟩,
                                         ⟨c!"service.proto", 18, 2, 18⟩⟩ }),
             edition := none,
             protoBody := [.service { serviceName := c!"SearchService",
                                      serviceBody := [.rpc { rpcName := c!"Search",
                                                             rpcRequest :=
                                                               { isStream := false,
                                                                 messageType := c!"SearchRequest",
                                                                 info :=
                                                                   ⟨⟨c!"service.proto", 57, 4, 14⟩,
                                                                    ⟨c!"service.proto", 71, 4, 28⟩⟩ },
                                                             rpcResponse :=
                                                               { isStream := false,
                                                                 messageType := c!"SearchResponse",
                                                                 info :=
                                                                   ⟨⟨c!"service.proto", 81, 4, 38⟩,
                                                                    ⟨c!"service.proto", 96, 4, 53⟩⟩ },
                                                             options := [],
                                                             info := ⟨⟨c!"service.proto", 46, 4,
                                                                       3⟩,
                                                                      ⟨c!"service.proto", 97, 4,
                                                                       54⟩⟩ }],
                                      info := ⟨⟨c!"service.proto", 20, 3, 1⟩,
                                               ⟨c!"service.proto", 99, 5, 1⟩⟩ }],
             metaFilename := c!"service.proto" },
           true)) := by
  kernel_rfl

-- parsing comments
example :
    (reads (parseProto (cfg false false)) c!"comments.proto"
       c!"\n\
          // syntax\n\
          /*\n\
          syntax2\n\
          */\n\
          syntax = \"proto3\";\n\
          // import\n\
          import public \"other.proto\";\n\
          /* package */\n\
          package foo.bar;\n\
          // option\n\
          option java_package = \"com.example.foo\";\n\
          // message\n\
          message outer {\n\
          }\n\
          // enum\n\
          enum EnumAllowingAlias {\n\
          \x20 option allow_alias = true;\n\
          }\n\
          // service\n\
          service SearchService {\n\
          \x20 rpc Search (SearchRequest) returns (SearchResponse);\n\
          }\n") =
    (some ({ syntax_ := (some { protobufVersion := c!"proto3",
                                protobufVersionQuote := c!"\"proto3\"",
                                comments := [⟨c!"// syntax",
                                              ⟨⟨c!"comments.proto", 1, 2, 1⟩,
                                               ⟨c!"comments.proto", 9, 2, 9⟩⟩⟩,
                                             ⟨c!"/*\nsyntax2\n*/",
                                              ⟨⟨c!"comments.proto", 11, 3, 1⟩,
                                               ⟨c!"comments.proto", 23, 5, 2⟩⟩⟩],
                                info := ⟨⟨c!"comments.proto", 25, 6, 1⟩,
                                         ⟨c!"comments.proto", 42, 6, 18⟩⟩ }),
             edition := none,
             protoBody := [.importStmt { modifier := .public,
                                         location := c!"\"other.proto\"",
                                         comments := [⟨c!"// import",
                                                       ⟨⟨c!"comments.proto", 44, 7, 1⟩,
                                                        ⟨c!"comments.proto", 52, 7, 9⟩⟩⟩],
                                         info := ⟨⟨c!"comments.proto", 54, 8, 1⟩,
                                                  ⟨c!"comments.proto", 81, 8, 28⟩⟩ },
                           .package { name := c!"foo.bar",
                                      comments := [⟨c!"/* package */",
                                                    ⟨⟨c!"comments.proto", 83, 9, 1⟩,
                                                     ⟨c!"comments.proto", 95, 9, 13⟩⟩⟩],
                                      info := ⟨⟨c!"comments.proto", 97, 10, 1⟩,
                                               ⟨c!"comments.proto", 112, 10, 16⟩⟩ },
                           .option { optionName := c!"java_package",
                                     constant := c!"\"com.example.foo\"",
                                     comments := [⟨c!"// option",
                                                   ⟨⟨c!"comments.proto", 114, 11, 1⟩,
                                                    ⟨c!"comments.proto", 122, 11, 9⟩⟩⟩],
                                     info := ⟨⟨c!"comments.proto", 124, 12, 1⟩,
                                              ⟨c!"comments.proto", 163, 12, 40⟩⟩ },
                           .message { messageName := c!"outer",
                                      messageBody := [],
                                      comments := [⟨c!"// message",
                                                    ⟨⟨c!"comments.proto", 165, 13, 1⟩,
                                                     ⟨c!"comments.proto", 174, 13, 10⟩⟩⟩],
                                      info := ⟨⟨c!"comments.proto", 176, 14, 1⟩,
                                               ⟨c!"comments.proto", 192, 15, 1⟩⟩ },
                           .enum { enumName := c!"EnumAllowingAlias",
                                   enumBody := [.option { optionName := c!"allow_alias",
                                                          constant := c!"true",
                                                          info := ⟨⟨c!"comments.proto", 229, 18,
                                                                    3⟩,
                                                                   ⟨c!"comments.proto", 254, 18,
                                                                    28⟩⟩ }],
                                   comments := [⟨c!"// enum",
                                                 ⟨⟨c!"comments.proto", 194, 16, 1⟩,
                                                  ⟨c!"comments.proto", 200, 16, 7⟩⟩⟩],
                                   info := ⟨⟨c!"comments.proto", 202, 17, 1⟩,
                                            ⟨c!"comments.proto", 256, 19, 1⟩⟩ },
                           .service { serviceName := c!"SearchService",
                                      serviceBody := [.rpc { rpcName := c!"Search",
                                                             rpcRequest :=
                                                               { isStream := false,
                                                                 messageType := c!"SearchRequest",
                                                                 info :=
                                                                   ⟨⟨c!"comments.proto", 306, 22,
                                                                     14⟩,
                                                                    ⟨c!"comments.proto", 320, 22,
                                                                     28⟩⟩ },
                                                             rpcResponse :=
                                                               { isStream := false,
                                                                 messageType := c!"SearchResponse",
                                                                 info :=
                                                                   ⟨⟨c!"comments.proto", 330, 22,
                                                                     38⟩,
                                                                    ⟨c!"comments.proto", 345, 22,
                                                                     53⟩⟩ },
                                                             options := [],
                                                             info := ⟨⟨c!"comments.proto", 295,
                                                                       22, 3⟩,
                                                                      ⟨c!"comments.proto", 346,
                                                                       22, 54⟩⟩ }],
                                      comments := [⟨c!"// service",
                                                    ⟨⟨c!"comments.proto", 258, 20, 1⟩,
                                                     ⟨c!"comments.proto", 267, 20, 10⟩⟩⟩],
                                      info := ⟨⟨c!"comments.proto", 269, 21, 1⟩,
                                               ⟨c!"comments.proto", 348, 23, 1⟩⟩ }],
             metaFilename := c!"comments.proto" },
           true)) := by
  kernel_rfl

-- parsing inline comments
example :
    (reads (parseProto (cfg false false)) c!"inlineComments.proto"
       c!"\n\
          syntax = \"proto3\"; // syntax\n\
          import public \"other.proto\"; // import\n\
          package foo.bar; /* package */\n\
          option java_package = \"com.example.foo\"; // option\n\
          message outer {\n\
          } // message\n\
          enum EnumAllowingAlias {\n\
          \x20 option allow_alias = true;\n\
          } // enum\n\
          service SearchService {\n\
          \x20 rpc Search (SearchRequest) returns (SearchResponse);\n\
          } // service\n") =
    (some ({ syntax_ := (some { protobufVersion := c!"proto3",
                                protobufVersionQuote := c!"\"proto3\"",
                                inlineComment := (some ⟨c!"// syntax",
                                                        ⟨⟨c!"inlineComments.proto", 20, 2, 20⟩,
                                                         ⟨c!"inlineComments.proto", 28, 2, 28⟩⟩⟩),
                                info := ⟨⟨c!"inlineComments.proto", 1, 2, 1⟩,
                                         ⟨c!"inlineComments.proto", 18, 2, 18⟩⟩ }),
             edition := none,
             protoBody := [.importStmt { modifier := .public,
                                         location := c!"\"other.proto\"",
                                         inlineComment := (some ⟨c!"// import",
                                                                 ⟨⟨c!"inlineComments.proto", 59,
                                                                   3, 30⟩,
                                                                  ⟨c!"inlineComments.proto", 67,
                                                                   3, 38⟩⟩⟩),
                                         info := ⟨⟨c!"inlineComments.proto", 30, 3, 1⟩,
                                                  ⟨c!"inlineComments.proto", 57, 3, 28⟩⟩ },
                           .package { name := c!"foo.bar",
                                      inlineComment := (some ⟨c!"/* package */",
                                                              ⟨⟨c!"inlineComments.proto", 86, 4,
                                                                18⟩,
                                                               ⟨c!"inlineComments.proto", 98, 4,
                                                                30⟩⟩⟩),
                                      info := ⟨⟨c!"inlineComments.proto", 69, 4, 1⟩,
                                               ⟨c!"inlineComments.proto", 84, 4, 16⟩⟩ },
                           .option { optionName := c!"java_package",
                                     constant := c!"\"com.example.foo\"",
                                     inlineComment := (some ⟨c!"// option",
                                                             ⟨⟨c!"inlineComments.proto", 141, 5,
                                                               42⟩,
                                                              ⟨c!"inlineComments.proto", 149, 5,
                                                               50⟩⟩⟩),
                                     info := ⟨⟨c!"inlineComments.proto", 100, 5, 1⟩,
                                              ⟨c!"inlineComments.proto", 139, 5, 40⟩⟩ },
                           .message { messageName := c!"outer",
                                      messageBody := [],
                                      inlineComment := (some ⟨c!"// message",
                                                              ⟨⟨c!"inlineComments.proto", 169, 7,
                                                                3⟩,
                                                               ⟨c!"inlineComments.proto", 178, 7,
                                                                12⟩⟩⟩),
                                      info := ⟨⟨c!"inlineComments.proto", 151, 6, 1⟩,
                                               ⟨c!"inlineComments.proto", 167, 7, 1⟩⟩ },
                           .enum { enumName := c!"EnumAllowingAlias",
                                   enumBody := [.option { optionName := c!"allow_alias",
                                                          constant := c!"true",
                                                          info := ⟨⟨c!"inlineComments.proto",
                                                                    207, 9, 3⟩,
                                                                   ⟨c!"inlineComments.proto",
                                                                    232, 9, 28⟩⟩ }],
                                   inlineComment := (some ⟨c!"// enum",
                                                           ⟨⟨c!"inlineComments.proto", 236, 10, 3⟩,
                                                            ⟨c!"inlineComments.proto", 242, 10, 9⟩⟩⟩),
                                   info := ⟨⟨c!"inlineComments.proto", 180, 8, 1⟩,
                                            ⟨c!"inlineComments.proto", 234, 10, 1⟩⟩ },
                           .service { serviceName := c!"SearchService",
                                      serviceBody := [.rpc { rpcName := c!"Search",
                                                             rpcRequest :=
                                                               { isStream := false,
                                                                 messageType := c!"SearchRequest",
                                                                 info :=
                                                                   ⟨⟨c!"inlineComments.proto",
                                                                     281, 12, 14⟩,
                                                                    ⟨c!"inlineComments.proto",
                                                                     295, 12, 28⟩⟩ },
                                                             rpcResponse :=
                                                               { isStream := false,
                                                                 messageType := c!"SearchResponse",
                                                                 info :=
                                                                   ⟨⟨c!"inlineComments.proto",
                                                                     305, 12, 38⟩,
                                                                    ⟨c!"inlineComments.proto",
                                                                     320, 12, 53⟩⟩ },
                                                             options := [],
                                                             info := ⟨⟨c!"inlineComments.proto",
                                                                       270, 12, 3⟩,
                                                                      ⟨c!"inlineComments.proto",
                                                                       321, 12, 54⟩⟩ }],
                                      inlineComment := (some ⟨c!"// service",
                                                              ⟨⟨c!"inlineComments.proto", 325,
                                                                13, 3⟩,
                                                               ⟨c!"inlineComments.proto", 334,
                                                                13, 12⟩⟩⟩),
                                      info := ⟨⟨c!"inlineComments.proto", 244, 11, 1⟩,
                                               ⟨c!"inlineComments.proto", 323, 13, 1⟩⟩ }],
             metaFilename := c!"inlineComments.proto" },
           true)) := by
  kernel_rfl

-- parsing inline comments with permissive mode
example :
    (reads (parseProto (cfg true false)) c!"inlineComments.proto"
       c!"\n\
          syntax = \"proto3\"; // syntax\n\
          import public \"other.proto\"; // import\n\
          package foo.bar; /* package */\n\
          option java_package = \"com.example.foo\"; // option\n\
          message outer {\n\
          } // message\n\
          enum EnumAllowingAlias {\n\
          \x20 option allow_alias = true;\n\
          } // enum\n\
          service SearchService {\n\
          \x20 rpc Search (SearchRequest) returns (SearchResponse);\n\
          } // service\n") =
    (some ({ syntax_ := (some { protobufVersion := c!"proto3",
                                protobufVersionQuote := c!"\"proto3\"",
                                inlineComment := (some ⟨c!"// syntax",
                                                        ⟨⟨c!"inlineComments.proto", 20, 2, 20⟩,
                                                         ⟨c!"inlineComments.proto", 28, 2, 28⟩⟩⟩),
                                info := ⟨⟨c!"inlineComments.proto", 1, 2, 1⟩,
                                         ⟨c!"inlineComments.proto", 18, 2, 18⟩⟩ }),
             edition := none,
             protoBody := [.importStmt { modifier := .public,
                                         location := c!"\"other.proto\"",
                                         inlineComment := (some ⟨c!"// import",
                                                                 ⟨⟨c!"inlineComments.proto", 59,
                                                                   3, 30⟩,
                                                                  ⟨c!"inlineComments.proto", 67,
                                                                   3, 38⟩⟩⟩),
                                         info := ⟨⟨c!"inlineComments.proto", 30, 3, 1⟩,
                                                  ⟨c!"inlineComments.proto", 57, 3, 28⟩⟩ },
                           .package { name := c!"foo.bar",
                                      inlineComment := (some ⟨c!"/* package */",
                                                              ⟨⟨c!"inlineComments.proto", 86, 4,
                                                                18⟩,
                                                               ⟨c!"inlineComments.proto", 98, 4,
                                                                30⟩⟩⟩),
                                      info := ⟨⟨c!"inlineComments.proto", 69, 4, 1⟩,
                                               ⟨c!"inlineComments.proto", 84, 4, 16⟩⟩ },
                           .option { optionName := c!"java_package",
                                     constant := c!"\"com.example.foo\"",
                                     inlineComment := (some ⟨c!"// option",
                                                             ⟨⟨c!"inlineComments.proto", 141, 5,
                                                               42⟩,
                                                              ⟨c!"inlineComments.proto", 149, 5,
                                                               50⟩⟩⟩),
                                     info := ⟨⟨c!"inlineComments.proto", 100, 5, 1⟩,
                                              ⟨c!"inlineComments.proto", 139, 5, 40⟩⟩ },
                           .message { messageName := c!"outer",
                                      messageBody := [],
                                      inlineComment := (some ⟨c!"// message",
                                                              ⟨⟨c!"inlineComments.proto", 169, 7,
                                                                3⟩,
                                                               ⟨c!"inlineComments.proto", 178, 7,
                                                                12⟩⟩⟩),
                                      info := ⟨⟨c!"inlineComments.proto", 151, 6, 1⟩,
                                               ⟨c!"inlineComments.proto", 167, 7, 1⟩⟩ },
                           .enum { enumName := c!"EnumAllowingAlias",
                                   enumBody := [.option { optionName := c!"allow_alias",
                                                          constant := c!"true",
                                                          info := ⟨⟨c!"inlineComments.proto",
                                                                    207, 9, 3⟩,
                                                                   ⟨c!"inlineComments.proto",
                                                                    232, 9, 28⟩⟩ }],
                                   inlineComment := (some ⟨c!"// enum",
                                                           ⟨⟨c!"inlineComments.proto", 236, 10, 3⟩,
                                                            ⟨c!"inlineComments.proto", 242, 10, 9⟩⟩⟩),
                                   info := ⟨⟨c!"inlineComments.proto", 180, 8, 1⟩,
                                            ⟨c!"inlineComments.proto", 234, 10, 1⟩⟩ },
                           .service { serviceName := c!"SearchService",
                                      serviceBody := [.rpc { rpcName := c!"Search",
                                                             rpcRequest :=
                                                               { isStream := false,
                                                                 messageType := c!"SearchRequest",
                                                                 info :=
                                                                   ⟨⟨c!"inlineComments.proto",
                                                                     281, 12, 14⟩,
                                                                    ⟨c!"inlineComments.proto",
                                                                     295, 12, 28⟩⟩ },
                                                             rpcResponse :=
                                                               { isStream := false,
                                                                 messageType := c!"SearchResponse",
                                                                 info :=
                                                                   ⟨⟨c!"inlineComments.proto",
                                                                     305, 12, 38⟩,
                                                                    ⟨c!"inlineComments.proto",
                                                                     320, 12, 53⟩⟩ },
                                                             options := [],
                                                             info := ⟨⟨c!"inlineComments.proto",
                                                                       270, 12, 3⟩,
                                                                      ⟨c!"inlineComments.proto",
                                                                       321, 12, 54⟩⟩ }],
                                      inlineComment := (some ⟨c!"// service",
                                                              ⟨⟨c!"inlineComments.proto", 325,
                                                                13, 3⟩,
                                                               ⟨c!"inlineComments.proto", 334,
                                                                13, 12⟩⟩⟩),
                                      info := ⟨⟨c!"inlineComments.proto", 244, 11, 1⟩,
                                               ⟨c!"inlineComments.proto", 323, 13, 1⟩⟩ }],
             metaFilename := c!"inlineComments.proto" },
           true)) := by
  kernel_rfl

-- skipping a last comment
example :
    (reads (parseProto (cfg false false)) c!"service.proto"
       c!"\n\
          syntax = \"proto3\";\n\
          service SearchService {\n\
          \x20 rpc Search (SearchRequest) returns (SearchResponse);\n\
          }\n\
          // last comment\n") =
    (some ({ syntax_ := (some { protobufVersion := c!"proto3",
                                protobufVersionQuote := c!"\"proto3\"",
                                info := ⟨⟨c!"service.proto", 1, 2, 1⟩,
                                         ⟨c!"service.proto", 18, 2, 18⟩⟩ }),
             edition := none,
             protoBody := [.service { serviceName := c!"SearchService",
                                      serviceBody := [.rpc { rpcName := c!"Search",
                                                             rpcRequest :=
                                                               { isStream := false,
                                                                 messageType := c!"SearchRequest",
                                                                 info :=
                                                                   ⟨⟨c!"service.proto", 57, 4, 14⟩,
                                                                    ⟨c!"service.proto", 71, 4, 28⟩⟩ },
                                                             rpcResponse :=
                                                               { isStream := false,
                                                                 messageType := c!"SearchResponse",
                                                                 info :=
                                                                   ⟨⟨c!"service.proto", 81, 4, 38⟩,
                                                                    ⟨c!"service.proto", 96, 4, 53⟩⟩ },
                                                             options := [],
                                                             info := ⟨⟨c!"service.proto", 46, 4,
                                                                       3⟩,
                                                                      ⟨c!"service.proto", 97, 4,
                                                                       54⟩⟩ }],
                                      info := ⟨⟨c!"service.proto", 20, 3, 1⟩,
                                               ⟨c!"service.proto", 99, 5, 1⟩⟩ }],
             metaFilename := c!"service.proto" },
           true)) := by
  kernel_rfl

-- parsing last comments
example :
    (reads (parseProto (cfg false true)) c!"service.proto"
       c!"\n\
          syntax = \"proto3\";\n\
          service SearchService {\n\
          \x20 rpc Search (SearchRequest) returns (SearchResponse);\n\
          }\n\
          // last first comment\n\
          /* last second comment */\n") =
    (some ({ syntax_ := (some { protobufVersion := c!"proto3",
                                protobufVersionQuote := c!"\"proto3\"",
                                info := ⟨⟨c!"service.proto", 1, 2, 1⟩,
                                         ⟨c!"service.proto", 18, 2, 18⟩⟩ }),
             edition := none,
             protoBody := [.service { serviceName := c!"SearchService",
                                      serviceBody := [.rpc { rpcName := c!"Search",
                                                             rpcRequest :=
                                                               { isStream := false,
                                                                 messageType := c!"SearchRequest",
                                                                 info :=
                                                                   ⟨⟨c!"service.proto", 57, 4, 14⟩,
                                                                    ⟨c!"service.proto", 71, 4, 28⟩⟩ },
                                                             rpcResponse :=
                                                               { isStream := false,
                                                                 messageType := c!"SearchResponse",
                                                                 info :=
                                                                   ⟨⟨c!"service.proto", 81, 4, 38⟩,
                                                                    ⟨c!"service.proto", 96, 4, 53⟩⟩ },
                                                             options := [],
                                                             info := ⟨⟨c!"service.proto", 46, 4,
                                                                       3⟩,
                                                                      ⟨c!"service.proto", 97, 4,
                                                                       54⟩⟩ }],
                                      info := ⟨⟨c!"service.proto", 20, 3, 1⟩,
                                               ⟨c!"service.proto", 99, 5, 1⟩⟩ },
                           .comment ⟨c!"// last first comment",
                                     ⟨⟨c!"service.proto", 101, 6, 1⟩,
                                      ⟨c!"service.proto", 121, 6, 21⟩⟩⟩,
                           .comment ⟨c!"/* last second comment */",
                                     ⟨⟨c!"service.proto", 123, 7, 1⟩,
                                      ⟨c!"service.proto", 147, 7, 25⟩⟩⟩],
             metaFilename := c!"service.proto" },
           true)) := by
  kernel_rfl

-- parsing an extend
example :
    (reads (parseProto (cfg false false)) c!""
       c!"\nsyntax = \"proto3\";\nextend Foo {\n  int32 bar = 126;\n}\n") =
    (some ({ syntax_ := (some { protobufVersion := c!"proto3",
                                protobufVersionQuote := c!"\"proto3\"",
                                info := ⟨⟨[], 1, 2, 1⟩, ⟨[], 18, 2, 18⟩⟩ }),
             edition := none,
             protoBody := [.extend { messageType := c!"Foo",
                                     extendBody := [.field { isRepeated := false,
                                                             isRequired := false,
                                                             isOptional := false,
                                                             type := c!"int32",
                                                             fieldName := c!"bar",
                                                             fieldNumber := c!"126",
                                                             fieldOptions := [],
                                                             info := ⟨⟨[], 35, 4, 3⟩,
                                                                      ⟨[], 50, 4, 18⟩⟩ }],
                                     info := ⟨⟨[], 20, 3, 1⟩, ⟨[], 52, 5, 1⟩⟩ }],
             metaFilename := c!"" },
           true)) := by
  kernel_rfl

-- parsing an excerpt from the official reference(proto2)
example :
    (reads (parseProto (cfg false false)) c!"official.proto"
       c!"\n\
          syntax = \"proto2\";\n\
          import public \"other.proto\";\n\
          option java_package = \"com.example.foo\";\n\
          enum EnumAllowingAlias {\n\
          \x20 option allow_alias = true;\n\
          \x20 UNKNOWN = 0;\n\
          \x20 STARTED = 1;\n\
          \x20 RUNNING = 2 [(custom_option) = \"hello world\"];\n\
          }\n\
          message outer {\n\
          \x20 option (my_option).a = true;\n\
          \x20 message inner {   // Level 2\n\
          \x20   required int64 ival = 1;\n\
          \x20 }\n\
          \x20 repeated inner inner_message = 2;\n\
          \x20 optional EnumAllowingAlias enum_field = 3;\n\
          \x20 map<int32, string> my_map = 4;\n\
          \x20 extensions 20 to 30;\n\
          }\n\
          message foo {\n\
          \x20 optional group GroupMessage = 1 {\n\
          \x20   optional int64 a = 1;\n\
          \x20 }\n\
          }") =
    (some ({ syntax_ := (some { protobufVersion := c!"proto2",
                                protobufVersionQuote := c!"\"proto2\"",
                                info := ⟨⟨c!"official.proto", 1, 2, 1⟩,
                                         ⟨c!"official.proto", 18, 2, 18⟩⟩ }),
             edition := none,
             protoBody := [.importStmt { modifier := .public,
                                         location := c!"\"other.proto\"",
                                         info := ⟨⟨c!"official.proto", 20, 3, 1⟩,
                                                  ⟨c!"official.proto", 47, 3, 28⟩⟩ },
                           .option { optionName := c!"java_package",
                                     constant := c!"\"com.example.foo\"",
                                     info := ⟨⟨c!"official.proto", 49, 4, 1⟩,
                                              ⟨c!"official.proto", 88, 4, 40⟩⟩ },
                           .enum { enumName := c!"EnumAllowingAlias",
                                   enumBody := [.option { optionName := c!"allow_alias",
                                                          constant := c!"true",
                                                          info := ⟨⟨c!"official.proto", 117, 6, 3⟩,
                                                                   ⟨c!"official.proto", 142, 6,
                                                                    28⟩⟩ },
                                                .enumField { ident := c!"UNKNOWN",
                                                             number := c!"0",
                                                             enumValueOptions := [],
                                                             info := ⟨⟨c!"official.proto", 146,
                                                                       7, 3⟩,
                                                                      ⟨c!"official.proto", 157,
                                                                       7, 14⟩⟩ },
                                                .enumField { ident := c!"STARTED",
                                                             number := c!"1",
                                                             enumValueOptions := [],
                                                             info := ⟨⟨c!"official.proto", 161,
                                                                       8, 3⟩,
                                                                      ⟨c!"official.proto", 172,
                                                                       8, 14⟩⟩ },
                                                .enumField { ident := c!"RUNNING",
                                                             number := c!"2",
                                                             enumValueOptions :=
                                                               [{ optionName :=
                                                                    c!"(custom_option)",
                                                                  constant := c!"\"hello world\"" }],
                                                             info := ⟨⟨c!"official.proto", 176,
                                                                       9, 3⟩,
                                                                      ⟨c!"official.proto", 221,
                                                                       9, 48⟩⟩ }],
                                   info := ⟨⟨c!"official.proto", 90, 5, 1⟩,
                                            ⟨c!"official.proto", 223, 10, 1⟩⟩ },
                           .message { messageName := c!"outer",
                                      messageBody := [.option { optionName := c!"(my_option).a",
                                                                constant := c!"true",
                                                                info :=
                                                                  ⟨⟨c!"official.proto", 243, 12,
                                                                    3⟩,
                                                                   ⟨c!"official.proto", 270, 12,
                                                                    30⟩⟩ },
                                                      .message { messageName := c!"inner",
                                                                 messageBody :=
                                                                   [.field
                                                                      { isRepeated := false,
                                                                        isRequired := true,
                                                                        isOptional := false,
                                                                        type := c!"int64",
                                                                        fieldName := c!"ival",
                                                                        fieldNumber := c!"1",
                                                                        fieldOptions := [],
                                                                        info :=
                                                                          ⟨⟨c!"official.proto",
                                                                            307, 14, 5⟩,
                                                                           ⟨c!"official.proto",
                                                                            330, 14, 28⟩⟩ }],
                                                                 info :=
                                                                   ⟨⟨c!"official.proto", 274, 13,
                                                                     3⟩,
                                                                    ⟨c!"official.proto", 334, 15,
                                                                     3⟩⟩,
                                                                 inlineCommentBehindLeftCurly :=
                                                                   (some
                                                                      ⟨c!"// Level 2",
                                                                       ⟨⟨c!"official.proto", 292,
                                                                         13, 21⟩,
                                                                        ⟨c!"official.proto", 301,
                                                                         13, 30⟩⟩⟩) },
                                                      .field { isRepeated := true,
                                                               isRequired := false,
                                                               isOptional := false,
                                                               type := c!"inner",
                                                               fieldName := c!"inner_message",
                                                               fieldNumber := c!"2",
                                                               fieldOptions := [],
                                                               info :=
                                                                 ⟨⟨c!"official.proto", 338, 16, 3⟩,
                                                                  ⟨c!"official.proto", 370, 16,
                                                                   35⟩⟩ },
                                                      .field { isRepeated := false,
                                                               isRequired := false,
                                                               isOptional := true,
                                                               type := c!"EnumAllowingAlias",
                                                               fieldName := c!"enum_field",
                                                               fieldNumber := c!"3",
                                                               fieldOptions := [],
                                                               info :=
                                                                 ⟨⟨c!"official.proto", 374, 17, 3⟩,
                                                                  ⟨c!"official.proto", 415, 17,
                                                                   44⟩⟩ },
                                                      .mapField { keyType := c!"int32",
                                                                  type := c!"string",
                                                                  mapName := c!"my_map",
                                                                  fieldNumber := c!"4",
                                                                  fieldOptions := [],
                                                                  info :=
                                                                    ⟨⟨c!"official.proto", 419,
                                                                      18, 3⟩,
                                                                     ⟨c!"official.proto", 448,
                                                                      18, 32⟩⟩ },
                                                      .extensions { ranges :=
                                                                      [{ begin_ := c!"20",
                                                                         end_ := c!"30" }],
                                                                    declarations := [],
                                                                    info :=
                                                                      ⟨⟨c!"official.proto", 452,
                                                                        19, 3⟩,
                                                                       ⟨c!"official.proto", 471,
                                                                        19, 22⟩⟩ }],
                                      info := ⟨⟨c!"official.proto", 225, 11, 1⟩,
                                               ⟨c!"official.proto", 473, 20, 1⟩⟩ },
                           .message { messageName := c!"foo",
                                      messageBody := [.groupField { isRepeated := false,
                                                                    isRequired := false,
                                                                    isOptional := true,
                                                                    groupName := c!"GroupMessage",
                                                                    messageBody :=
                                                                      [.field
                                                                         { isRepeated := false,
                                                                           isRequired := false,
                                                                           isOptional := true,
                                                                           type := c!"int64",
                                                                           fieldName := c!"a",
                                                                           fieldNumber := c!"1",
                                                                           fieldOptions := [],
                                                                           info :=
                                                                             ⟨⟨c!"official.proto",
                                                                               529, 23, 5⟩,
                                                                              ⟨c!"official.proto",
                                                                               549, 23, 25⟩⟩ }],
                                                                    fieldNumber := c!"1",
                                                                    info :=
                                                                      ⟨⟨c!"official.proto", 491,
                                                                        22, 3⟩,
                                                                       ⟨c!"official.proto", 553,
                                                                        24, 3⟩⟩ }],
                                      info := ⟨⟨c!"official.proto", 475, 21, 1⟩,
                                               ⟨c!"official.proto", 555, 25, 1⟩⟩ }],
             metaFilename := c!"official.proto" },
           true)) := by
  kernel_rfl

-- parsing a UTF-8-BOM file
example :
    (reads (parseProto (cfg false false)) c!"" c!"\ufeff\nsyntax = \"proto3\";\n") =
    (some ({ syntax_ := (some { protobufVersion := c!"proto3",
                                protobufVersionQuote := c!"\"proto3\"",
                                info := ⟨⟨[], 4, 2, 1⟩, ⟨[], 21, 2, 18⟩⟩ }),
             edition := none,
             protoBody := [],
             metaFilename := c!"" },
           true)) := by
  kernel_rfl

-- parsing an editions version from the official reference
example :
    (reads (parseProto (cfg false false)) c!""
       c!"\n\
          edition = \"2023\";\n\
          import public \"other.proto\";\n\
          option java_package = \"com.example.foo\";\n\
          enum EnumAllowingAlias {\n\
          \x20 option allow_alias = true;\n\
          \x20 EAA_UNSPECIFIED = 0;\n\
          \x20 EAA_STARTED = 1;\n\
          \x20 EAA_RUNNING = 1;\n\
          \x20 EAA_FINISHED = 2 [(custom_option) = \"hello world\"];\n\
          }\n\
          message Outer {\n\
          \x20 option (my_option).a = true;\n\
          \x20 message Inner {   // Level 2\n\
          \x20   int64 ival = 1 [features.field_presence = LEGACY_REQUIRED];\n\
          \x20 }\n\
          \x20 repeated Inner inner_message = 2;\n\
          \x20 EnumAllowingAlias enum_field = 3;\n\
          \x20 map<int32, string> my_map = 4;\n\
          \x20 extensions 20 to 30;\n\
          \x20 reserved reserved_field;\n\
          }\n\
          message Foo {\n\
          \x20 message GroupMessage {\n\
          \x20   bool a = 1;\n\
          \x20 }\n\
          \x20 GroupMessage groupmessage = 2 [features.message_encoding = DELIMITED];\n\
          }") =
    (some ({ syntax_ := none,
             edition := (some { edition := c!"2023",
                                editionQuote := c!"\"2023\"",
                                info := ⟨⟨[], 1, 2, 1⟩, ⟨[], 17, 2, 17⟩⟩ }),
             protoBody := [.importStmt { modifier := .public,
                                         location := c!"\"other.proto\"",
                                         info := ⟨⟨[], 19, 3, 1⟩, ⟨[], 46, 3, 28⟩⟩ },
                           .option { optionName := c!"java_package",
                                     constant := c!"\"com.example.foo\"",
                                     info := ⟨⟨[], 48, 4, 1⟩, ⟨[], 87, 4, 40⟩⟩ },
                           .enum { enumName := c!"EnumAllowingAlias",
                                   enumBody := [.option { optionName := c!"allow_alias",
                                                          constant := c!"true",
                                                          info := ⟨⟨[], 116, 6, 3⟩,
                                                                   ⟨[], 141, 6, 28⟩⟩ },
                                                .enumField { ident := c!"EAA_UNSPECIFIED",
                                                             number := c!"0",
                                                             enumValueOptions := [],
                                                             info := ⟨⟨[], 145, 7, 3⟩,
                                                                      ⟨[], 164, 7, 22⟩⟩ },
                                                .enumField { ident := c!"EAA_STARTED",
                                                             number := c!"1",
                                                             enumValueOptions := [],
                                                             info := ⟨⟨[], 168, 8, 3⟩,
                                                                      ⟨[], 183, 8, 18⟩⟩ },
                                                .enumField { ident := c!"EAA_RUNNING",
                                                             number := c!"1",
                                                             enumValueOptions := [],
                                                             info := ⟨⟨[], 187, 9, 3⟩,
                                                                      ⟨[], 202, 9, 18⟩⟩ },
                                                .enumField { ident := c!"EAA_FINISHED",
                                                             number := c!"2",
                                                             enumValueOptions :=
                                                               [{ optionName :=
                                                                    c!"(custom_option)",
                                                                  constant := c!"\"hello world\"" }],
                                                             info := ⟨⟨[], 206, 10, 3⟩,
                                                                      ⟨[], 256, 10, 53⟩⟩ }],
                                   info := ⟨⟨[], 89, 5, 1⟩, ⟨[], 258, 11, 1⟩⟩ },
                           .message { messageName := c!"Outer",
                                      messageBody := [.option { optionName := c!"(my_option).a",
                                                                constant := c!"true",
                                                                info :=
                                                                  ⟨⟨[], 278, 13, 3⟩,
                                                                   ⟨[], 305, 13, 30⟩⟩ },
                                                      .message { messageName := c!"Inner",
                                                                 messageBody :=
                                                                   [.field
                                                                      { isRepeated := false,
                                                                        isRequired := false,
                                                                        isOptional := false,
                                                                        type := c!"int64",
                                                                        fieldName := c!"ival",
                                                                        fieldNumber := c!"1",
                                                                        fieldOptions :=
                                                                          [{ optionName :=
                                                                               c!"features.field\
                                                                                  _presence",
                                                                             constant :=
                                                                               c!"LEGACY_REQUIRED" }],
                                                                        info :=
                                                                          ⟨⟨[], 342, 15, 5⟩,
                                                                           ⟨[], 400, 15, 63⟩⟩ }],
                                                                 info :=
                                                                   ⟨⟨[], 309, 14, 3⟩,
                                                                    ⟨[], 404, 16, 3⟩⟩,
                                                                 inlineCommentBehindLeftCurly :=
                                                                   (some
                                                                      ⟨c!"// Level 2",
                                                                       ⟨⟨[], 327, 14, 21⟩,
                                                                        ⟨[], 336, 14, 30⟩⟩⟩) },
                                                      .field { isRepeated := true,
                                                               isRequired := false,
                                                               isOptional := false,
                                                               type := c!"Inner",
                                                               fieldName := c!"inner_message",
                                                               fieldNumber := c!"2",
                                                               fieldOptions := [],
                                                               info :=
                                                                 ⟨⟨[], 408, 17, 3⟩,
                                                                  ⟨[], 440, 17, 35⟩⟩ },
                                                      .field { isRepeated := false,
                                                               isRequired := false,
                                                               isOptional := false,
                                                               type := c!"EnumAllowingAlias",
                                                               fieldName := c!"enum_field",
                                                               fieldNumber := c!"3",
                                                               fieldOptions := [],
                                                               info :=
                                                                 ⟨⟨[], 444, 18, 3⟩,
                                                                  ⟨[], 476, 18, 35⟩⟩ },
                                                      .mapField { keyType := c!"int32",
                                                                  type := c!"string",
                                                                  mapName := c!"my_map",
                                                                  fieldNumber := c!"4",
                                                                  fieldOptions := [],
                                                                  info :=
                                                                    ⟨⟨[], 480, 19, 3⟩,
                                                                     ⟨[], 509, 19, 32⟩⟩ },
                                                      .extensions { ranges :=
                                                                      [{ begin_ := c!"20",
                                                                         end_ := c!"30" }],
                                                                    declarations := [],
                                                                    info :=
                                                                      ⟨⟨[], 513, 20, 3⟩,
                                                                       ⟨[], 532, 20, 22⟩⟩ },
                                                      .reserved { ranges := [],
                                                                  fieldNames :=
                                                                    [c!"reserved_field"],
                                                                  info :=
                                                                    ⟨⟨[], 536, 21, 3⟩,
                                                                     ⟨[], 559, 21, 26⟩⟩ }],
                                      info := ⟨⟨[], 260, 12, 1⟩, ⟨[], 561, 22, 1⟩⟩ },
                           .message { messageName := c!"Foo",
                                      messageBody := [.message { messageName := c!"GroupMessage",
                                                                 messageBody :=
                                                                   [.field
                                                                      { isRepeated := false,
                                                                        isRequired := false,
                                                                        isOptional := false,
                                                                        type := c!"bool",
                                                                        fieldName := c!"a",
                                                                        fieldNumber := c!"1",
                                                                        fieldOptions := [],
                                                                        info :=
                                                                          ⟨⟨[], 606, 25, 5⟩,
                                                                           ⟨[], 616, 25, 15⟩⟩ }],
                                                                 info :=
                                                                   ⟨⟨[], 579, 24, 3⟩,
                                                                    ⟨[], 620, 26, 3⟩⟩ },
                                                      .field { isRepeated := false,
                                                               isRequired := false,
                                                               isOptional := false,
                                                               type := c!"GroupMessage",
                                                               fieldName := c!"groupmessage",
                                                               fieldNumber := c!"2",
                                                               fieldOptions :=
                                                                 [{ optionName :=
                                                                      c!"features.message_encodi\
                                                                         ng",
                                                                    constant := c!"DELIMITED" }],
                                                               info :=
                                                                 ⟨⟨[], 624, 27, 3⟩,
                                                                  ⟨[], 693, 27, 72⟩⟩ }],
                                      info := ⟨⟨[], 563, 23, 1⟩, ⟨[], 695, 28, 1⟩⟩ }],
             metaFilename := c!"" },
           true)) := by
  kernel_rfl

/-! ## unordered/enum_test.go -/

-- interpreting a nil
example :
    ((Unordered.ofPtr Unordered.interpretEnum none).toOption) =
    (some none) := by
  unordered_rfl

-- interpreting an excerpt from the official reference with comments and reserved
example :
    ((Unordered.ofPtr Unordered.interpretEnum (some { enumName := c!"EnumAllowingAlias",
                                                      enumBody := [.option
                                                                     { optionName :=
                                                                         c!"allow_alias",
                                                                       constant := c!"true",
                                                                       info :=
                                                                         ⟨⟨[], 0, 0, 0⟩,
                                                                          ⟨[], 0, 0, 0⟩⟩ },
                                                                   .enumField
                                                                     { ident := c!"UNKNOWN",
                                                                       number := c!"0",
                                                                       enumValueOptions := [],
                                                                       info :=
                                                                         ⟨⟨[], 0, 0, 0⟩,
                                                                          ⟨[], 0, 0, 0⟩⟩ },
                                                                   .enumField
                                                                     { ident := c!"STARTED",
                                                                       number := c!"1",
                                                                       enumValueOptions := [],
                                                                       info :=
                                                                         ⟨⟨[], 0, 0, 0⟩,
                                                                          ⟨[], 0, 0, 0⟩⟩ },
                                                                   .enumField
                                                                     { ident := c!"RUNNING",
                                                                       number := c!"2",
                                                                       enumValueOptions :=
                                                                         [{ optionName :=
                                                                              c!"(custom_option)",
                                                                            constant :=
                                                                              c!"\"hello world\"" }],
                                                                       info :=
                                                                         ⟨⟨[], 0, 0, 0⟩,
                                                                          ⟨[], 0, 0, 0⟩⟩ },
                                                                   .reserved
                                                                     { ranges := [],
                                                                       fieldNames :=
                                                                         [c!"\"FOO\"",
                                                                          c!"\"BAR\""],
                                                                       info :=
                                                                         ⟨⟨[], 0, 0, 0⟩,
                                                                          ⟨[], 0, 0, 0⟩⟩ }],
                                                      comments := [⟨c!"// enum",
                                                                    ⟨⟨[], 0, 0, 0⟩, ⟨[], 0, 0, 0⟩⟩⟩],
                                                      inlineComment :=
                                                        (some ⟨c!"// TODO: implementation",
                                                               ⟨⟨[], 25, 2, 26⟩, ⟨[], 0, 0, 0⟩⟩⟩),
                                                      info := ⟨⟨[], 21, 3, 1⟩, ⟨[], 0, 0, 0⟩⟩,
                                                      inlineCommentBehindLeftCurly :=
                                                        (some ⟨c!"// TODO: implementation2",
                                                               ⟨⟨[], 25, 1, 26⟩, ⟨[], 0, 0, 0⟩⟩⟩) })).toOption)
      =
    (some (some { enumName := c!"EnumAllowingAlias",
                  enumBody := { options := [{ optionName := c!"allow_alias",
                                              constant := c!"true",
                                              info := ⟨⟨[], 0, 0, 0⟩, ⟨[], 0, 0, 0⟩⟩ }],
                                enumFields := [{ ident := c!"UNKNOWN",
                                                 number := c!"0",
                                                 enumValueOptions := [],
                                                 info := ⟨⟨[], 0, 0, 0⟩, ⟨[], 0, 0, 0⟩⟩ },
                                               { ident := c!"STARTED",
                                                 number := c!"1",
                                                 enumValueOptions := [],
                                                 info := ⟨⟨[], 0, 0, 0⟩, ⟨[], 0, 0, 0⟩⟩ },
                                               { ident := c!"RUNNING",
                                                 number := c!"2",
                                                 enumValueOptions := [{ optionName :=
                                                                          c!"(custom_option)",
                                                                        constant :=
                                                                          c!"\"hello world\"" }],
                                                 info := ⟨⟨[], 0, 0, 0⟩, ⟨[], 0, 0, 0⟩⟩ }],
                                reserveds := [{ ranges := [],
                                                fieldNames := [c!"\"FOO\"", c!"\"BAR\""],
                                                info := ⟨⟨[], 0, 0, 0⟩, ⟨[], 0, 0, 0⟩⟩ }],
                                emptyStatements := [] },
                  comments := [⟨c!"// enum", ⟨⟨[], 0, 0, 0⟩, ⟨[], 0, 0, 0⟩⟩⟩],
                  inlineComment := (some ⟨c!"// TODO: implementation",
                                          ⟨⟨[], 25, 2, 26⟩, ⟨[], 0, 0, 0⟩⟩⟩),
                  info := ⟨⟨[], 21, 3, 1⟩, ⟨[], 0, 0, 0⟩⟩,
                  inlineCommentBehindLeftCurly := (some ⟨c!"// TODO: implementation2",
                                                         ⟨⟨[], 25, 1, 26⟩, ⟨[], 0, 0, 0⟩⟩⟩) })) :=
      by
  unordered_rfl

/-! ## unordered/message_test.go -/

-- interpreting a nil
example :
    ((Unordered.ofPtr Unordered.interpretMessage none).toOption) =
    (some none) := by
  unordered_rfl

-- interpreting an excerpt from the official reference with comments
example :
    ((Unordered.ofPtr Unordered.interpretMessage (some { messageName := c!"Outer",
                                                         messageBody :=
                                                           [.option { optionName :=
                                                                        c!"(my_option).a",
                                                                      constant := c!"true",
                                                                      info :=
                                                                        ⟨⟨[], 0, 0, 0⟩,
                                                                         ⟨[], 0, 0, 0⟩⟩ },
                                                            .message { messageName := c!"Inner",
                                                                       messageBody :=
                                                                         [.field
                                                                            { isRepeated := false,
                                                                              isRequired := false,
                                                                              isOptional := false,
                                                                              type := c!"int64",
                                                                              fieldName :=
                                                                                c!"ival",
                                                                              fieldNumber := c!"1",
                                                                              fieldOptions := [],
                                                                              info :=
                                                                                ⟨⟨[], 0, 0, 0⟩,
                                                                                 ⟨[], 0, 0, 0⟩⟩ }],
                                                                       info :=
                                                                         ⟨⟨[], 0, 0, 0⟩,
                                                                          ⟨[], 0, 0, 0⟩⟩ },
                                                            .mapField
                                                              { keyType := c!"int32",
                                                                type := c!"string",
                                                                mapName := c!"my_map",
                                                                fieldNumber := c!"2",
                                                                fieldOptions := [],
                                                                info :=
                                                                  ⟨⟨[], 0, 0, 0⟩, ⟨[], 0, 0, 0⟩⟩ }],
                                                         comments := [⟨c!"// message",
                                                                       ⟨⟨[], 0, 0, 0⟩,
                                                                        ⟨[], 0, 0, 0⟩⟩⟩],
                                                         inlineComment :=
                                                           (some ⟨c!"// TODO: implementation",
                                                                  ⟨⟨[], 25, 2, 26⟩, ⟨[], 0, 0, 0⟩⟩⟩),
                                                         info := ⟨⟨[], 21, 3, 1⟩, ⟨[], 0, 0, 0⟩⟩,
                                                         inlineCommentBehindLeftCurly :=
                                                           (some ⟨c!"// TODO: implementation2",
                                                                  ⟨⟨[], 25, 1, 26⟩, ⟨[], 0, 0, 0⟩⟩⟩) })).toOption)
      =
    (some (some (.mk c!"Outer" { fields := [],
                                 enums := [],
                                 messages := [(.mk c!"Inner" { fields :=
                                                                 [{ isRepeated := false,
                                                                    isRequired := false,
                                                                    isOptional := false,
                                                                    type := c!"int64",
                                                                    fieldName := c!"ival",
                                                                    fieldNumber := c!"1",
                                                                    fieldOptions := [],
                                                                    info :=
                                                                      ⟨⟨[], 0, 0, 0⟩,
                                                                       ⟨[], 0, 0, 0⟩⟩ }],
                                                               enums := [],
                                                               messages := [],
                                                               options := [],
                                                               oneofs := [],
                                                               maps := [],
                                                               groups := [],
                                                               reserves := [],
                                                               extends_ := [],
                                                               emptyStatements := [],
                                                               extensions := [] } [] none none
                                                 ⟨⟨[], 0, 0, 0⟩, ⟨[], 0, 0, 0⟩⟩)],
                                 options := [{ optionName := c!"(my_option).a",
                                               constant := c!"true",
                                               info := ⟨⟨[], 0, 0, 0⟩, ⟨[], 0, 0, 0⟩⟩ }],
                                 oneofs := [],
                                 maps := [{ keyType := c!"int32",
                                            type := c!"string",
                                            mapName := c!"my_map",
                                            fieldNumber := c!"2",
                                            fieldOptions := [],
                                            info := ⟨⟨[], 0, 0, 0⟩, ⟨[], 0, 0, 0⟩⟩ }],
                                 groups := [],
                                 reserves := [],
                                 extends_ := [],
                                 emptyStatements := [],
                                 extensions := [] } [⟨c!"// message",
                                                      ⟨⟨[], 0, 0, 0⟩, ⟨[], 0, 0, 0⟩⟩⟩]
                   (some ⟨c!"// TODO: implementation", ⟨⟨[], 25, 2, 26⟩, ⟨[], 0, 0, 0⟩⟩⟩)
                   (some ⟨c!"// TODO: implementation2", ⟨⟨[], 25, 1, 26⟩, ⟨[], 0, 0, 0⟩⟩⟩)
                   ⟨⟨[], 21, 3, 1⟩, ⟨[], 0, 0, 0⟩⟩))) := by
  unordered_rfl

/-! ## unordered/proto_test.go -/

-- interpreting a nil
example :
    ((Unordered.ofPtr Unordered.interpretProto none).toOption) =
    (some none) := by
  unordered_rfl

-- interpreting an excerpt from the official reference
example :
    ((Unordered.ofPtr Unordered.interpretProto (some { syntax_ := (some
                                                                     { protobufVersion :=
                                                                         c!"proto3",
                                                                       protobufVersionQuote :=
                                                                         c!"",
                                                                       info :=
                                                                         ⟨⟨[], 0, 0, 0⟩,
                                                                          ⟨[], 0, 0, 0⟩⟩ }),
                                                       edition := none,
                                                       protoBody := [.importStmt
                                                                       { modifier := .public,
                                                                         location :=
                                                                           c!"\"other.proto\"",
                                                                         info :=
                                                                           ⟨⟨[], 0, 0, 0⟩,
                                                                            ⟨[], 0, 0, 0⟩⟩ },
                                                                     .option
                                                                       { optionName :=
                                                                           c!"java_package",
                                                                         constant :=
                                                                           c!"\"com.example.foo\"",
                                                                         info :=
                                                                           ⟨⟨[], 0, 0, 0⟩,
                                                                            ⟨[], 0, 0, 0⟩⟩ },
                                                                     .enum
                                                                       { enumName :=
                                                                           c!"EnumAllowingAlias",
                                                                         enumBody :=
                                                                           [.option
                                                                              { optionName :=
                                                                                  c!"allow_alias",
                                                                                constant :=
                                                                                  c!"true",
                                                                                info :=
                                                                                  ⟨⟨[], 0, 0, 0⟩,
                                                                                   ⟨[], 0, 0, 0⟩⟩ },
                                                                            .enumField
                                                                              { ident :=
                                                                                  c!"UNKNOWN",
                                                                                number := c!"0",
                                                                                enumValueOptions
                                                                                  := [],
                                                                                info :=
                                                                                  ⟨⟨[], 0, 0, 0⟩,
                                                                                   ⟨[], 0, 0, 0⟩⟩ },
                                                                            .enumField
                                                                              { ident :=
                                                                                  c!"STARTED",
                                                                                number := c!"1",
                                                                                enumValueOptions
                                                                                  := [],
                                                                                info :=
                                                                                  ⟨⟨[], 0, 0, 0⟩,
                                                                                   ⟨[], 0, 0, 0⟩⟩ },
                                                                            .enumField
                                                                              { ident :=
                                                                                  c!"RUNNING",
                                                                                number := c!"2",
                                                                                enumValueOptions
                                                                                  :=
                                                                                  [{ optionName :=
                                                                                       c!"(custo\
                                                                                          m_opti\
                                                                                          on)",
                                                                                     constant :=
                                                                                       c!"\"hell\
                                                                                          o worl\
                                                                                          d\"" }],
                                                                                info :=
                                                                                  ⟨⟨[], 0, 0, 0⟩,
                                                                                   ⟨[], 0, 0, 0⟩⟩ }],
                                                                         info :=
                                                                           ⟨⟨[], 0, 0, 0⟩,
                                                                            ⟨[], 0, 0, 0⟩⟩ },
                                                                     .message
                                                                       { messageName := c!"outer",
                                                                         messageBody :=
                                                                           [.option
                                                                              { optionName :=
                                                                                  c!"(my_option)\
                                                                                     .a",
                                                                                constant :=
                                                                                  c!"true",
                                                                                info :=
                                                                                  ⟨⟨[], 0, 0, 0⟩,
                                                                                   ⟨[], 0, 0, 0⟩⟩ },
                                                                            .message
                                                                              { messageName :=
                                                                                  c!"inner",
                                                                                messageBody :=
                                                                                  [.field
                                                                                     { isRepeated
                                                                                         := false,
                                                                                       isRequired
                                                                                         := false,
                                                                                       isOptional
                                                                                         := false,
                                                                                       type :=
                                                                                         c!"int64",
                                                                                       fieldName
                                                                                         :=
                                                                                         c!"ival",
                                                                                       fieldNumber
                                                                                         := c!"1",
                                                                                       fieldOptions
                                                                                         := [],
                                                                                       info :=
                                                                                         ⟨⟨[], 0,
                                                                                           0, 0⟩,
                                                                                          ⟨[], 0,
                                                                                           0, 0⟩⟩ }],
                                                                                info :=
                                                                                  ⟨⟨[], 0, 0, 0⟩,
                                                                                   ⟨[], 0, 0, 0⟩⟩ },
                                                                            .field
                                                                              { isRepeated := true,
                                                                                isRequired :=
                                                                                  false,
                                                                                isOptional :=
                                                                                  false,
                                                                                type := c!"inner",
                                                                                fieldName :=
                                                                                  c!"inner_messa\
                                                                                     ge",
                                                                                fieldNumber :=
                                                                                  c!"2",
                                                                                fieldOptions := [],
                                                                                info :=
                                                                                  ⟨⟨[], 0, 0, 0⟩,
                                                                                   ⟨[], 0, 0, 0⟩⟩ },
                                                                            .field
                                                                              { isRepeated :=
                                                                                  false,
                                                                                isRequired :=
                                                                                  false,
                                                                                isOptional :=
                                                                                  false,
                                                                                type :=
                                                                                  c!"EnumAllowin\
                                                                                     gAlias",
                                                                                fieldName :=
                                                                                  c!"enum_field",
                                                                                fieldNumber :=
                                                                                  c!"3",
                                                                                fieldOptions := [],
                                                                                info :=
                                                                                  ⟨⟨[], 0, 0, 0⟩,
                                                                                   ⟨[], 0, 0, 0⟩⟩ },
                                                                            .mapField
                                                                              { keyType :=
                                                                                  c!"int32",
                                                                                type := c!"string",
                                                                                mapName :=
                                                                                  c!"my_map",
                                                                                fieldNumber :=
                                                                                  c!"4",
                                                                                fieldOptions := [],
                                                                                info :=
                                                                                  ⟨⟨[], 0, 0, 0⟩,
                                                                                   ⟨[], 0, 0, 0⟩⟩ }],
                                                                         info :=
                                                                           ⟨⟨[], 0, 0, 0⟩,
                                                                            ⟨[], 0, 0, 0⟩⟩ }],
                                                       metaFilename := c!"" })).toOption) =
    (some (some { syntax_ := (some { protobufVersion := c!"proto3",
                                     protobufVersionQuote := c!"",
                                     info := ⟨⟨[], 0, 0, 0⟩, ⟨[], 0, 0, 0⟩⟩ }),
                  protoBody := { imports := [{ modifier := .public,
                                               location := c!"\"other.proto\"",
                                               info := ⟨⟨[], 0, 0, 0⟩, ⟨[], 0, 0, 0⟩⟩ }],
                                 packages := [],
                                 options := [{ optionName := c!"java_package",
                                               constant := c!"\"com.example.foo\"",
                                               info := ⟨⟨[], 0, 0, 0⟩, ⟨[], 0, 0, 0⟩⟩ }],
                                 messages := [(.mk c!"outer" { fields :=
                                                                 [{ isRepeated := true,
                                                                    isRequired := false,
                                                                    isOptional := false,
                                                                    type := c!"inner",
                                                                    fieldName := c!"inner_message",
                                                                    fieldNumber := c!"2",
                                                                    fieldOptions := [],
                                                                    info :=
                                                                      ⟨⟨[], 0, 0, 0⟩,
                                                                       ⟨[], 0, 0, 0⟩⟩ },
                                                                  { isRepeated := false,
                                                                    isRequired := false,
                                                                    isOptional := false,
                                                                    type := c!"EnumAllowingAlias",
                                                                    fieldName := c!"enum_field",
                                                                    fieldNumber := c!"3",
                                                                    fieldOptions := [],
                                                                    info :=
                                                                      ⟨⟨[], 0, 0, 0⟩,
                                                                       ⟨[], 0, 0, 0⟩⟩ }],
                                                               enums := [],
                                                               messages :=
                                                                 [(.mk c!"inner"
                                                                     { fields :=
                                                                         [{ isRepeated := false,
                                                                            isRequired := false,
                                                                            isOptional := false,
                                                                            type := c!"int64",
                                                                            fieldName := c!"ival",
                                                                            fieldNumber := c!"1",
                                                                            fieldOptions := [],
                                                                            info :=
                                                                              ⟨⟨[], 0, 0, 0⟩,
                                                                               ⟨[], 0, 0, 0⟩⟩ }],
                                                                       enums := [],
                                                                       messages := [],
                                                                       options := [],
                                                                       oneofs := [],
                                                                       maps := [],
                                                                       groups := [],
                                                                       reserves := [],
                                                                       extends_ := [],
                                                                       emptyStatements := [],
                                                                       extensions := [] } [] none
                                                                     none
                                                                     ⟨⟨[], 0, 0, 0⟩,
                                                                      ⟨[], 0, 0, 0⟩⟩)],
                                                               options :=
                                                                 [{ optionName :=
                                                                      c!"(my_option).a",
                                                                    constant := c!"true",
                                                                    info :=
                                                                      ⟨⟨[], 0, 0, 0⟩,
                                                                       ⟨[], 0, 0, 0⟩⟩ }],
                                                               oneofs := [],
                                                               maps :=
                                                                 [{ keyType := c!"int32",
                                                                    type := c!"string",
                                                                    mapName := c!"my_map",
                                                                    fieldNumber := c!"4",
                                                                    fieldOptions := [],
                                                                    info :=
                                                                      ⟨⟨[], 0, 0, 0⟩,
                                                                       ⟨[], 0, 0, 0⟩⟩ }],
                                                               groups := [],
                                                               reserves := [],
                                                               extends_ := [],
                                                               emptyStatements := [],
                                                               extensions := [] } [] none none
                                                 ⟨⟨[], 0, 0, 0⟩, ⟨[], 0, 0, 0⟩⟩)],
                                 extends_ := [],
                                 enums := [{ enumName := c!"EnumAllowingAlias",
                                             enumBody := { options :=
                                                             [{ optionName := c!"allow_alias",
                                                                constant := c!"true",
                                                                info :=
                                                                  ⟨⟨[], 0, 0, 0⟩, ⟨[], 0, 0, 0⟩⟩ }],
                                                           enumFields :=
                                                             [{ ident := c!"UNKNOWN",
                                                                number := c!"0",
                                                                enumValueOptions := [],
                                                                info :=
                                                                  ⟨⟨[], 0, 0, 0⟩, ⟨[], 0, 0, 0⟩⟩ },
                                                              { ident := c!"STARTED",
                                                                number := c!"1",
                                                                enumValueOptions := [],
                                                                info :=
                                                                  ⟨⟨[], 0, 0, 0⟩, ⟨[], 0, 0, 0⟩⟩ },
                                                              { ident := c!"RUNNING",
                                                                number := c!"2",
                                                                enumValueOptions :=
                                                                  [{ optionName :=
                                                                       c!"(custom_option)",
                                                                     constant :=
                                                                       c!"\"hello world\"" }],
                                                                info :=
                                                                  ⟨⟨[], 0, 0, 0⟩, ⟨[], 0, 0, 0⟩⟩ }],
                                                           reserveds := [],
                                                           emptyStatements := [] },
                                             comments := [],
                                             inlineComment := none,
                                             info := ⟨⟨[], 0, 0, 0⟩, ⟨[], 0, 0, 0⟩⟩,
                                             inlineCommentBehindLeftCurly := none }],
                                 services := [],
                                 emptyStatements := [] } })) := by
  unordered_rfl

/-! ## unordered/service_test.go -/

-- interpreting a nil
example :
    ((Unordered.ofPtr Unordered.interpretService none).toOption) =
    (some none) := by
  unordered_rfl

-- interpreting an excerpt from the official reference with a option and comments
example :
    ((Unordered.ofPtr Unordered.interpretService (some { serviceName := c!"SearchService",
                                                         serviceBody :=
                                                           [.option { optionName :=
                                                                        c!"case-sensitive",
                                                                      constant := c!"true",
                                                                      info :=
                                                                        ⟨⟨[], 0, 0, 0⟩,
                                                                         ⟨[], 0, 0, 0⟩⟩ },
                                                            .rpc { rpcName := c!"Search",
                                                                   rpcRequest :=
                                                                     { isStream := false,
                                                                       messageType :=
                                                                         c!"SearchRequest",
                                                                       info :=
                                                                         ⟨⟨[], 0, 0, 0⟩,
                                                                          ⟨[], 0, 0, 0⟩⟩ },
                                                                   rpcResponse :=
                                                                     { isStream := false,
                                                                       messageType :=
                                                                         c!"SearchResponse",
                                                                       info :=
                                                                         ⟨⟨[], 0, 0, 0⟩,
                                                                          ⟨[], 0, 0, 0⟩⟩ },
                                                                   options := [],
                                                                   info :=
                                                                     ⟨⟨[], 0, 0, 0⟩,
                                                                      ⟨[], 0, 0, 0⟩⟩ }],
                                                         comments := [⟨c!"// service",
                                                                       ⟨⟨[], 0, 0, 0⟩,
                                                                        ⟨[], 0, 0, 0⟩⟩⟩],
                                                         inlineComment :=
                                                           (some ⟨c!"// TODO: implementation",
                                                                  ⟨⟨[], 25, 2, 26⟩, ⟨[], 0, 0, 0⟩⟩⟩),
                                                         info := ⟨⟨[], 21, 3, 1⟩, ⟨[], 0, 0, 0⟩⟩,
                                                         inlineCommentBehindLeftCurly :=
                                                           (some ⟨c!"// TODO: implementation2",
                                                                  ⟨⟨[], 25, 1, 26⟩, ⟨[], 0, 0, 0⟩⟩⟩) })).toOption)
      =
    (some (some { serviceName := c!"SearchService",
                  serviceBody := { options := [{ optionName := c!"case-sensitive",
                                                 constant := c!"true",
                                                 info := ⟨⟨[], 0, 0, 0⟩, ⟨[], 0, 0, 0⟩⟩ }],
                                   rpcs := [{ rpcName := c!"Search",
                                              rpcRequest := { isStream := false,
                                                              messageType := c!"SearchRequest",
                                                              info :=
                                                                ⟨⟨[], 0, 0, 0⟩, ⟨[], 0, 0, 0⟩⟩ },
                                              rpcResponse := { isStream := false,
                                                               messageType := c!"SearchResponse",
                                                               info :=
                                                                 ⟨⟨[], 0, 0, 0⟩, ⟨[], 0, 0, 0⟩⟩ },
                                              options := [],
                                              info := ⟨⟨[], 0, 0, 0⟩, ⟨[], 0, 0, 0⟩⟩ }] },
                  comments := [⟨c!"// service", ⟨⟨[], 0, 0, 0⟩, ⟨[], 0, 0, 0⟩⟩⟩],
                  inlineComment := (some ⟨c!"// TODO: implementation",
                                          ⟨⟨[], 25, 2, 26⟩, ⟨[], 0, 0, 0⟩⟩⟩),
                  info := ⟨⟨[], 21, 3, 1⟩, ⟨[], 0, 0, 0⟩⟩,
                  inlineCommentBehindLeftCurly := (some ⟨c!"// TODO: implementation2",
                                                         ⟨⟨[], 25, 1, 26⟩, ⟨[], 0, 0, 0⟩⟩⟩) })) :=
      by
  unordered_rfl

/-! ## proto_accept_test.go -/

-- parsing an empty
example :
    (visits { syntax_ := none, edition := none, protoBody := [], metaFilename := c!"" }) =
    (c!"") := by
  kernel_rfl

-- parsing a syntax
example :
    (visits { syntax_ := (some { protobufVersion := c!"3",
                                 protobufVersionQuote := c!"",
                                 info := ⟨⟨[], 0, 0, 0⟩, ⟨[], 0, 0, 0⟩⟩ }),
              edition := none,
              protoBody := [],
              metaFilename := c!"" }) =
    (c!"Syntax: 3") := by
  kernel_rfl

-- parsing an enum
example :
    (visits { syntax_ := none,
              edition := none,
              protoBody := [.enum { enumName := c!"TestEnum",
                                    enumBody := [.enumField { ident := c!"TestEnumField1",
                                                              number := c!"0",
                                                              enumValueOptions := [],
                                                              info :=
                                                                ⟨⟨[], 0, 0, 0⟩, ⟨[], 0, 0, 0⟩⟩ },
                                                 .enumField { ident := c!"TestEnumField2",
                                                              number := c!"0",
                                                              enumValueOptions := [],
                                                              info :=
                                                                ⟨⟨[], 0, 0, 0⟩, ⟨[], 0, 0, 0⟩⟩ }],
                                    comments := [⟨c!"EnumComment1",
                                                  ⟨⟨[], 0, 0, 0⟩, ⟨[], 0, 0, 0⟩⟩⟩,
                                                 ⟨c!"EnumComment2",
                                                  ⟨⟨[], 0, 0, 0⟩, ⟨[], 0, 0, 0⟩⟩⟩],
                                    inlineComment := (some ⟨c!"EnumInlineComment",
                                                            ⟨⟨[], 0, 0, 0⟩, ⟨[], 0, 0, 0⟩⟩⟩),
                                    info := ⟨⟨[], 0, 0, 0⟩, ⟨[], 0, 0, 0⟩⟩,
                                    inlineCommentBehindLeftCurly := (some
                                                                       ⟨c!"EnumInlineCommentBehi\
                                                                           ndLeftCurly",
                                                                        ⟨⟨[], 0, 0, 0⟩,
                                                                         ⟨[], 0, 0, 0⟩⟩⟩) }],
              metaFilename := c!"" }) =
    (c!"Enum: TestEnum\n\
        EnumField: TestEnumField1\n\
        EnumField: TestEnumField2\n\
        Comment: EnumComment1\n\
        Comment: EnumComment2\n\
        Comment: EnumInlineComment\n\
        Comment: EnumInlineCommentBehindLeftCurly") := by
  kernel_rfl

-- parsing a service
example :
    (visits { syntax_ := none,
              edition := none,
              protoBody := [.service { serviceName := c!"TestService",
                                       serviceBody := [.rpc { rpcName := c!"TestRPC1",
                                                              rpcRequest :=
                                                                { isStream := false,
                                                                  messageType := c!"",
                                                                  info :=
                                                                    ⟨⟨[], 0, 0, 0⟩, ⟨[], 0, 0, 0⟩⟩ },
                                                              rpcResponse :=
                                                                { isStream := false,
                                                                  messageType := c!"",
                                                                  info :=
                                                                    ⟨⟨[], 0, 0, 0⟩, ⟨[], 0, 0, 0⟩⟩ },
                                                              options := [],
                                                              info :=
                                                                ⟨⟨[], 0, 0, 0⟩, ⟨[], 0, 0, 0⟩⟩ },
                                                       .rpc { rpcName := c!"TestRPC2",
                                                              rpcRequest :=
                                                                { isStream := false,
                                                                  messageType := c!"",
                                                                  info :=
                                                                    ⟨⟨[], 0, 0, 0⟩, ⟨[], 0, 0, 0⟩⟩ },
                                                              rpcResponse :=
                                                                { isStream := false,
                                                                  messageType := c!"",
                                                                  info :=
                                                                    ⟨⟨[], 0, 0, 0⟩, ⟨[], 0, 0, 0⟩⟩ },
                                                              options := [],
                                                              info :=
                                                                ⟨⟨[], 0, 0, 0⟩, ⟨[], 0, 0, 0⟩⟩ }],
                                       info := ⟨⟨[], 0, 0, 0⟩, ⟨[], 0, 0, 0⟩⟩ }],
              metaFilename := c!"" }) =
    (c!"Service: TestService\nRPC: TestRPC1\nRPC: TestRPC2") := by
  kernel_rfl

-- parsing a message
example :
    (visits { syntax_ := none,
              edition := none,
              protoBody := [.message { messageName := c!"TestMessage",
                                       messageBody := [.message { messageName :=
                                                                    c!"TestMessageInner",
                                                                  messageBody := [],
                                                                  info :=
                                                                    ⟨⟨[], 0, 0, 0⟩, ⟨[], 0, 0, 0⟩⟩ }],
                                       info := ⟨⟨[], 0, 0, 0⟩, ⟨[], 0, 0, 0⟩⟩ }],
              metaFilename := c!"" }) =
    (c!"Message: TestMessage\nMessage: TestMessageInner") := by
  kernel_rfl

-- parsing an import and a package 
example :
    (visits { syntax_ := none,
              edition := none,
              protoBody := [.importStmt { modifier := .none,
                                          location := c!"Test_other.proto",
                                          info := ⟨⟨[], 0, 0, 0⟩, ⟨[], 0, 0, 0⟩⟩ },
                            .package { name := c!"TestMainPb",
                                       info := ⟨⟨[], 0, 0, 0⟩, ⟨[], 0, 0, 0⟩⟩ }],
              metaFilename := c!"" }) =
    (c!"Import: Test_other.proto\nPackage: TestMainPb") := by
  kernel_rfl

end Verif.Conformance
