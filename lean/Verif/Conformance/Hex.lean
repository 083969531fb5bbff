import Verif.Model.Hex

/-!
# The tables of encoding/hex/hex_test.go

Generated by tools/gen_conformance.py. These are tests of the model, not proofs about the code.
-/
namespace Conformance

open Hex

def hexBytesPairs : List (List U8 × List U8) := [
  ([], []),
  ([0x30, 0x30], [0x00]),
  ([0x30, 0x31], [0x01]),
  ([0x30, 0x32], [0x02]),
  ([0x30, 0x33], [0x03]),
  ([0x30, 0x34], [0x04]),
  ([0x30, 0x35], [0x05]),
  ([0x30, 0x36], [0x06]),
  ([0x30, 0x37], [0x07]),
  ([0x30, 0x38], [0x08]),
  ([0x30, 0x39], [0x09]),
  ([0x30, 0x41], [0x0a]),
  ([0x30, 0x42], [0x0b]),
  ([0x30, 0x43], [0x0c]),
  ([0x30, 0x44], [0x0d]),
  ([0x30, 0x45], [0x0e]),
  ([0x30, 0x46], [0x0f]),
  ([0x31, 0x30], [0x10]),
  ([0x31, 0x46], [0x1f]),
  ([0x32, 0x30], [0x20]),
  ([0x33, 0x46], [0x3f]),
  ([0x34, 0x30], [0x40]),
  ([0x37, 0x46], [0x7f]),
  ([0x38, 0x30], [0x80]),
  ([0x46, 0x46], [0xff]),
  ([0x30, 0x30, 0x30, 0x30], [0x00, 0x00]),
  ([0x30, 0x30, 0x30, 0x30, 0x30, 0x30, 0x30, 0x30], [0x00, 0x00, 0x00, 0x00]),
  ([0x30, 0x30, 0x30, 0x30, 0x30, 0x30, 0x30, 0x30, 0x30, 0x30, 0x30, 0x30, 0x30, 0x30, 0x30, 0x30], [0x00, 0x00, 0x00, 0x00,
    0x00, 0x00, 0x00, 0x00]),
  ([0x30, 0x30, 0x30, 0x31, 0x30, 0x32, 0x30, 0x33, 0x30, 0x34, 0x30, 0x35, 0x30, 0x36, 0x30, 0x37], [0x00, 0x01, 0x02, 0x03,
    0x04, 0x05, 0x06, 0x07]),
  ([0x30, 0x38, 0x30, 0x39, 0x30, 0x41, 0x30, 0x42, 0x30, 0x43, 0x30, 0x44, 0x30, 0x45, 0x30, 0x46], [0x08, 0x09, 0x0a, 0x0b,
    0x0c, 0x0d, 0x0e, 0x0f]),
  ([0x46, 0x30, 0x46, 0x31, 0x46, 0x32, 0x46, 0x33, 0x46, 0x34, 0x46, 0x35, 0x46, 0x36, 0x46, 0x37], [0xf0, 0xf1, 0xf2, 0xf3,
    0xf4, 0xf5, 0xf6, 0xf7]),
  ([0x46, 0x38, 0x46, 0x39, 0x46, 0x41, 0x46, 0x42, 0x46, 0x43, 0x46, 0x44, 0x46, 0x45, 0x46, 0x46], [0xf8, 0xf9, 0xfa, 0xfb,
    0xfc, 0xfd, 0xfe, 0xff]),
  ([0x44, 0x45, 0x41, 0x44, 0x42, 0x45, 0x45, 0x46], [0xde, 0xad, 0xbe, 0xef]),
  ([0x42, 0x32, 0x32, 0x36, 0x46, 0x30, 0x43, 0x38], [0xb2, 0x26, 0xf0, 0xc8]),
  ([0x39, 0x41, 0x42, 0x36, 0x30, 0x42, 0x30, 0x43, 0x32, 0x45, 0x31, 0x34, 0x30, 0x39, 0x45, 0x37], [0x9a, 0xb6, 0x0b, 0x0c,
    0x2e, 0x14, 0x09, 0xe7]),
  ([0x34, 0x39, 0x32, 0x44, 0x44, 0x37, 0x41, 0x42, 0x32, 0x35, 0x38, 0x46, 0x36, 0x31, 0x34, 0x33, 0x37, 0x43, 0x43, 0x37, 0x36,
    0x30, 0x37, 0x30, 0x46, 0x35, 0x46, 0x45, 0x32, 0x37, 0x35, 0x39], [0x49, 0x2d, 0xd7, 0xab, 0x25, 0x8f, 0x61, 0x43, 0x7c,
    0xc7, 0x60, 0x70, 0xf5, 0xfe, 0x27, 0x59]),
  ([0x31, 0x42, 0x45, 0x35, 0x44, 0x32, 0x37, 0x41, 0x39, 0x34, 0x43, 0x46, 0x32, 0x35, 0x32, 0x37, 0x33, 0x30, 0x32, 0x34, 0x41,
    0x42, 0x44, 0x38, 0x36, 0x34, 0x39, 0x43, 0x31, 0x39, 0x36, 0x42, 0x41, 0x35, 0x31, 0x34, 0x31, 0x45, 0x41, 0x33, 0x30,
    0x39, 0x44, 0x32, 0x41, 0x35, 0x37, 0x39, 0x41, 0x43, 0x39, 0x36, 0x41, 0x39, 0x43, 0x34, 0x46, 0x43, 0x35, 0x43, 0x34,
    0x31, 0x37, 0x39], [0x1b, 0xe5, 0xd2, 0x7a, 0x94, 0xcf, 0x25, 0x27, 0x30, 0x24, 0xab, 0xd8, 0x64, 0x9c, 0x19, 0x6b, 0xa5,
    0x14, 0x1e, 0xa3, 0x09, 0xd2, 0xa5, 0x79, 0xac, 0x96, 0xa9, 0xc4, 0xfc, 0x5c, 0x41, 0x79]),
  ([0x31, 0x38, 0x42, 0x33, 0x32, 0x43, 0x44, 0x41, 0x46, 0x33, 0x43, 0x39, 0x39, 0x42, 0x39, 0x39, 0x32, 0x42, 0x41, 0x34, 0x41,
    0x37, 0x32, 0x46, 0x44, 0x46, 0x35, 0x37, 0x38, 0x31, 0x37, 0x43, 0x34, 0x42, 0x46, 0x31, 0x33, 0x39, 0x35, 0x32, 0x37,
    0x36, 0x46, 0x35, 0x42, 0x39, 0x30, 0x36, 0x32, 0x35, 0x44, 0x30, 0x43, 0x42, 0x36, 0x36, 0x41, 0x39, 0x38, 0x37, 0x41,
    0x43, 0x35, 0x46, 0x39, 0x31, 0x41, 0x30, 0x44, 0x45, 0x45, 0x43, 0x36, 0x46, 0x34, 0x35, 0x46, 0x32, 0x37, 0x35, 0x30,
    0x39, 0x41, 0x38, 0x41, 0x43, 0x34, 0x45, 0x38, 0x38, 0x44, 0x45, 0x43, 0x32, 0x30, 0x39, 0x45, 0x41, 0x38, 0x36, 0x44,
    0x33, 0x36, 0x41, 0x44, 0x39, 0x46, 0x31, 0x30, 0x39, 0x42, 0x44, 0x30, 0x30, 0x38, 0x34, 0x45, 0x32, 0x44, 0x44, 0x37,
    0x46, 0x33, 0x30, 0x42, 0x38, 0x38, 0x43], [0x18, 0xb3, 0x2c, 0xda, 0xf3, 0xc9, 0x9b, 0x99, 0x2b, 0xa4, 0xa7, 0x2f, 0xdf,
    0x57, 0x81, 0x7c, 0x4b, 0xf1, 0x39, 0x52, 0x76, 0xf5, 0xb9, 0x06, 0x25, 0xd0, 0xcb, 0x66, 0xa9, 0x87, 0xac, 0x5f, 0x91,
    0xa0, 0xde, 0xec, 0x6f, 0x45, 0xf2, 0x75, 0x09, 0xa8, 0xac, 0x4e, 0x88, 0xde, 0xc2, 0x09, 0xea, 0x86, 0xd3, 0x6a, 0xd9,
    0xf1, 0x09, 0xbd, 0x00, 0x84, 0xe2, 0xdd, 0x7f, 0x30, 0xb8, 0x8c])]

/-- TestToBytes and TestFromBytes, for both builds. -/
example : ∀ r ∈ hexBytesPairs, FromBytes r.2 = .ok r.1 ∧ ToBytes .table r.1 = .ok ⟨some r.2, none⟩ ∧
    ToBytes .tiny r.1 = .ok ⟨some r.2, none⟩ := by decide +kernel

/-- TestLowerCaseDecodes. -/
example : ToBytes .table (ascii "b226f0c8") = .ok ⟨some [178, 38, 240, 200], none⟩ := by decide +kernel

def badHex : List (List U8 × HexErr) := [
  ([0x41], .errLength),
  ([0x41, 0x61, 0x41], .errLength),
  ([0x30, 0x5a], .invalidHexAt 90 1),
  ([0x5a, 0x30], .invalidHexAt 90 0),
  ([0x31, 0x2e, 0x31], .invalidHexAt 46 1),
  ([0x20, 0x41], .invalidHexAt 32 0),
  ([0x00], .invalidHexAt 0 0),
  ([0x1f], .invalidHexAt 31 0),
  ([0x20], .invalidHexAt 32 0),
  ([0x2f], .invalidHexAt 47 0),
  ([0x3a], .invalidHexAt 58 0),
  ([0x3f], .invalidHexAt 63 0),
  ([0x40], .invalidHexAt 64 0),
  ([0x47], .invalidHexAt 71 0),
  ([0x5a], .invalidHexAt 90 0),
  ([0x5f], .invalidHexAt 95 0),
  ([0x60], .invalidHexAt 96 0),
  ([0x67], .invalidHexAt 103 0),
  ([0x7a], .invalidHexAt 122 0),
  ([0x7e], .invalidHexAt 126 0),
  ([0xff], .invalidHexAt 255 0)]

/-- TestToBytesInvalidHex. -/
example : ∀ r ∈ badHex, ToBytes .table r.1 = .ok ⟨none, some r.2⟩ ∧ ToBytes .tiny r.1 = .ok ⟨none, some r.2⟩ := by
  decide +kernel

def decodePairs : List (U8 × Option U8) := [(0, none), (1, none), (2, none), (3, none), (4, none), (5, none), (6, none), (7,
    none), (8, none), (9, none), (10, none), (11, none), (12, none), (13, none), (14, none), (15, none), (16, none), (17, none),
    (18, none), (19, none), (20, none), (21, none), (22, none), (23, none), (24, none), (25, none), (26, none), (27, none), (28,
    none), (29, none), (30, none), (31, none), (32, none), (33, none), (34, none), (35, none), (36, none), (37, none), (38,
    none), (39, none), (40, none), (41, none), (42, none), (43, none), (44, none), (45, none), (46, none), (47, none), (48, some
    0), (49, some 1), (50, some 2), (51, some 3), (52, some 4), (53, some 5), (54, some 6), (55, some 7), (56, some 8), (57,
    some 9), (58, none), (59, none), (60, none), (61, none), (62, none), (63, none), (64, none), (65, some 10), (66, some 11),
    (67, some 12), (68, some 13), (69, some 14), (70, some 15), (71, none), (72, none), (73, none), (74, none), (75, none), (76,
    none), (77, none), (78, none), (79, none), (80, none), (81, none), (82, none), (83, none), (84, none), (85, none), (86,
    none), (87, none), (88, none), (89, none), (90, none), (91, none), (92, none), (93, none), (94, none), (95, none), (96,
    none), (97, some 10), (98, some 11), (99, some 12), (100, some 13), (101, some 14), (102, some 15), (103, none), (104,
    none), (105, none), (106, none), (107, none), (108, none), (109, none), (110, none), (111, none), (112, none), (113, none),
    (114, none), (115, none), (116, none), (117, none), (118, none), (119, none), (120, none), (121, none), (122, none), (123,
    none), (124, none), (125, none), (126, none), (127, none), (128, none), (129, none), (130, none), (131, none), (132, none),
    (133, none), (134, none), (135, none), (136, none), (137, none), (138, none), (139, none), (140, none), (141, none), (142,
    none), (143, none), (144, none), (145, none), (146, none), (147, none), (148, none), (149, none), (150, none), (151, none),
    (152, none), (153, none), (154, none), (155, none), (156, none), (157, none), (158, none), (159, none), (160, none), (161,
    none), (162, none), (163, none), (164, none), (165, none), (166, none), (167, none), (168, none), (169, none), (170, none),
    (171, none), (172, none), (173, none), (174, none), (175, none), (176, none), (177, none), (178, none), (179, none), (180,
    none), (181, none), (182, none), (183, none), (184, none), (185, none), (186, none), (187, none), (188, none), (189, none),
    (190, none), (191, none), (192, none), (193, none), (194, none), (195, none), (196, none), (197, none), (198, none), (199,
    none), (200, none), (201, none), (202, none), (203, none), (204, none), (205, none), (206, none), (207, none), (208, none),
    (209, none), (210, none), (211, none), (212, none), (213, none), (214, none), (215, none), (216, none), (217, none), (218,
    none), (219, none), (220, none), (221, none), (222, none), (223, none), (224, none), (225, none), (226, none), (227, none),
    (228, none), (229, none), (230, none), (231, none), (232, none), (233, none), (234, none), (235, none), (236, none), (237,
    none), (238, none), (239, none), (240, none), (241, none), (242, none), (243, none), (244, none), (245, none), (246, none),
    (247, none), (248, none), (249, none), (250, none), (251, none), (252, none), (253, none), (254, none), (255, none)]

/-- TestDecode. -/
example : ∀ r ∈ decodePairs, ∀ build ∈ [Build.table, .tiny],
    (if decode build r.1 ≤ 15#8 then some (decode build r.1) else none) = r.2 := by decide +kernel

end Conformance
