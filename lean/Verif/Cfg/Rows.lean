import Verif.Cfg.Conds
/-! # The commands that are checked

Generated by tools/gen_cfg.py from controller_properties.cc 1332-1692. -/
namespace Verif.Cfg

/-- The uses of `check_command_`, controller_properties.cc 1332-1692: the value of `OpCodeIndex`, the
requirement for BR/EDR and the requirement for LE. -/
def rows : List (Nat × Cond × Cond) := [
  (10, .mandatory, .excluded),
  (164, .c134, .excluded),
  (16, .c133, .excluded),
  (455, .c156, .c156),
  (7, .mandatory, .excluded),
  (4, .mandatory, .excluded),
  (315, .c201, .excluded),
  (67, .c121, .excluded),
  (5, .mandatory, .c3),
  (162, .c123, .excluded),
  (294, .c135, .excluded),
  (196, .mandatory, .excluded),
  (293, .c135, .excluded),
  (3, .c103, .excluded),
  (43, .c214, .excluded),
  (55, .mandatory, .excluded),
  (61, .mandatory, .excluded),
  (303, .c109, .c109),
  (41, .c213, .excluded),
  (106, .c107, .c107),
  (107, .c107, .c107),
  (1, .c127, .excluded),
  (0, .c127, .excluded),
  (203, .mandatory, .excluded),
  (187, .mandatory, .excluded),
  (423, .excluded, .c40),
  (270, .excluded, .mandatory),
  (383, .excluded, .c21),
  (343, .excluded, .c9),
  (430, .excluded, .c42),
  (431, .excluded, .c42),
  (371, .excluded, .c17),
  (267, .excluded, .mandatory),
  (385, .excluded, .c21),
  (345, .excluded, .c9),
  (402, .excluded, .c25),
  (403, .excluded, .c26),
  (272, .excluded, .c62),
  (425, .excluded, .c41),
  (426, .excluded, .c41),
  (421, .excluded, .c39),
  (265, .excluded, .c94),
  (264, .excluded, .c59),
  (166, .excluded, .c75),
  (292, .excluded, .c75),
  (205, .excluded, .c75),
  (122, .excluded, .c75),
  (206, .excluded, .c75),
  (167, .excluded, .c75),
  (241, .excluded, .c75),
  (290, .excluded, .c75),
  (247, .excluded, .c75),
  (291, .excluded, .c75),
  (233, .excluded, .c75),
  (234, .excluded, .c75),
  (123, .excluded, .c76),
  (207, .excluded, .c75),
  (280, .excluded, .c60),
  (276, .excluded, .c4),
  (443, .excluded, .c51),
  (377, .excluded, .c20),
  (342, .excluded, .c99),
  (412, .excluded, .optional),
  (437, .excluded, .c46),
  (436, .excluded, .c46),
  (440, .excluded, .c47),
  (435, .excluded, .c45),
  (282, .excluded, .c61),
  (281, .excluded, .c61),
  (414, .excluded, .c37),
  (381, .excluded, .c16),
  (380, .excluded, .c16),
  (407, .excluded, .c34),
  (406, .excluded, .c33),
  (382, .excluded, .c21),
  (277, .excluded, .c4),
  (256, .excluded, .c97),
  (404, .excluded, .c31),
  (251, .excluded, .c3),
  (415, .excluded, .c55),
  (274, .excluded, .c3),
  (266, .excluded, .mandatory),
  (442, .excluded, .c50),
  (416, .excluded, .c45),
  (350, .excluded, .c10),
  (252, .excluded, .mandatory),
  (366, .excluded, .c17),
  (353, .excluded, .c8),
  (367, .excluded, .c17),
  (347, .excluded, .c10),
  (386, .excluded, .c21),
  (354, .excluded, .c11),
  (275, .excluded, .c3),
  (444, .excluded, .c51),
  (346, .excluded, .c9),
  (390, .excluded, .c22),
  (337, .excluded, .c8),
  (283, .excluded, .mandatory),
  (387, .excluded, .c64),
  (284, .excluded, .c2),
  (357, .excluded, .c13),
  (393, .excluded, .c30),
  (424, .excluded, .c40),
  (335, .excluded, .c6),
  (334, .excluded, .c6),
  (370, .excluded, .c17),
  (422, .excluded, .c39),
  (271, .excluded, .mandatory),
  (384, .excluded, .c21),
  (344, .excluded, .c9),
  (434, .excluded, .c47),
  (432, .excluded, .c44),
  (351, .excluded, .c9),
  (257, .excluded, .c97),
  (261, .excluded, .c97),
  (255, .excluded, .c97),
  (361, .excluded, .c17),
  (417, .excluded, .c39),
  (420, .excluded, .c39),
  (400, .excluded, .c25),
  (401, .excluded, .c26),
  (396, .excluded, .c27),
  (395, .excluded, .c27),
  (397, .excluded, .c28),
  (336, .excluded, .c8),
  (456, .excluded, .c10),
  (411, .excluded, .c35),
  (355, .excluded, .c11),
  (460, .excluded, .c57),
  (250, .excluded, .mandatory),
  (363, .excluded, .c17),
  (365, .excluded, .c17),
  (362, .excluded, .c17),
  (376, .excluded, .c19),
  (375, .excluded, .c19),
  (364, .excluded, .c17),
  (273, .excluded, .c36),
  (441, .excluded, .c49),
  (446, .excluded, .c52),
  (445, .excluded, .c52),
  (373, .excluded, .c18),
  (374, .excluded, .c18),
  (372, .excluded, .c18),
  (405, .excluded, .c32),
  (410, .excluded, .c35),
  (356, .excluded, .c11),
  (392, .excluded, .c9),
  (254, .excluded, .c1),
  (352, .excluded, .c9),
  (263, .excluded, .c98),
  (262, .excluded, .c98),
  (260, .excluded, .c15),
  (447, .excluded, .c51),
  (433, .excluded, .c47),
  (461, .excluded, .c57),
  (427, .excluded, .c41),
  (286, .excluded, .mandatory),
  (285, .excluded, .c1),
  (360, .excluded, .c12),
  (394, .excluded, .c29),
  (450, .excluded, .c53),
  (391, .excluded, .c22),
  (340, .excluded, .c8),
  (13, .mandatory, .excluded),
  (12, .mandatory, .excluded),
  (22, .c215, .excluded),
  (2, .c128, .excluded),
  (15, .mandatory, .excluded),
  (14, .mandatory, .excluded),
  (46, .mandatory, .excluded),
  (132, .c140, .c58),
  (156, .c139, .excluded),
  (324, .c155, .c155),
  (84, .c111, .excluded),
  (94, .mandatory, .excluded),
  (151, .mandatory, .mandatory),
  (147, .mandatory, .excluded),
  (90, .mandatory, .excluded),
  (157, .optional, .excluded),
  (30, .optional, .excluded),
  (72, .mandatory, .c40),
  (113, .c125, .excluded),
  (232, .c124, .excluded),
  (182, .c112, .excluded),
  (53, .c141, .excluded),
  (204, .mandatory, .excluded),
  (240, .c217, .excluded),
  (332, .c113, .excluded),
  (170, .c205, .excluded),
  (330, .c114, .excluded),
  (152, .mandatory, .excluded),
  (230, .c124, .excluded),
  (100, .c213, .excluded),
  (126, .c115, .excluded),
  (180, .c125, .excluded),
  (82, .c125, .excluded),
  (124, .c125, .excluded),
  (245, .c116, .c116),
  (51, .c141, .excluded),
  (154, .optional, .excluded),
  (110, .c117, .excluded),
  (31, .c134, .excluded),
  (146, .c220, .excluded),
  (71, .mandatory, .excluded),
  (177, .mandatory, .excluded),
  (326, .c142, .excluded),
  (413, .optional, .excluded),
  (453, .c156, .c156),
  (295, .c157, .excluded),
  (452, .optional, .optional),
  (454, .c156, .c156),
  (145, .mandatory, .mandatory),
  (143, .mandatory, .mandatory),
  (160, .c123, .excluded),
  (96, .c118, .excluded),
  (112, .c125, .excluded),
  (80, .mandatory, .excluded),
  (130, .c119, .excluded),
  (74, .mandatory, .excluded),
  (62, .c120, .excluded),
  (26, .c220, .excluded),
  (25, .mandatory, .excluded),
  (27, .optional, .c3),
  (155, .optional, .c3),
  (76, .mandatory, .excluded),
  (322, .c218, .excluded),
  (175, .mandatory, .excluded),
  (65, .c121, .excluded),
  (317, .c203, .excluded),
  (103, .c122, .excluded),
  (102, .c152, .c3),
  (92, .c134, .excluded),
  (313, .c204, .excluded),
  (172, .mandatory, .excluded),
  (11, .mandatory, .excluded),
  (165, .c134, .excluded),
  (24, .c106, .excluded),
  (23, .optional, .excluded),
  (197, .mandatory, .excluded),
  (194, .mandatory, .excluded),
  (321, .c143, .excluded),
  (57, .mandatory, .mandatory),
  (153, .mandatory, .excluded),
  (47, .optional, .excluded),
  (202, .mandatory, .excluded),
  (121, .c140, .excluded),
  (20, .mandatory, .excluded),
  (310, .c201, .excluded),
  (316, .c201, .excluded),
  (311, .c202, .excluded),
  (105, .optional, .c96),
  (451, .optional, .optional),
  (60, .c148, .excluded),
  (56, .mandatory, .mandatory),
  (222, .c145, .c145),
  (297, .c108, .optional),
  (457, .optional, .excluded),
  (296, .optional, .optional),
  (302, .optional, .optional),
  (300, .optional, .optional),
  (301, .c109, .c109),
  (304, .c136, .excluded),
  (314, .c201, .excluded),
  (305, .optional, .excluded),
  (163, .c134, .excluded),
  (42, .c214, .excluded),
  (174, .c221, .excluded),
  (312, .c203, .excluded),
  (50, .c212, .excluded),
  (307, .c129, .excluded),
  (306, .c129, .excluded),
  (191, .mandatory, .excluded),
  (190, .mandatory, .excluded),
  (193, .mandatory, .excluded),
  (192, .mandatory, .excluded),
  (133, .c140, .c58),
  (325, .c151, .c7),
  (85, .optional, .excluded),
  (95, .mandatory, .excluded),
  (91, .mandatory, .excluded),
  (73, .mandatory, .c40),
  (114, .c125, .excluded),
  (183, .c135, .excluded),
  (54, .c141, .excluded),
  (333, .c128, .excluded),
  (171, .c205, .excluded),
  (331, .optional, .excluded),
  (231, .c124, .excluded),
  (101, .c213, .excluded),
  (127, .c146, .excluded),
  (83, .c125, .excluded),
  (125, .c125, .excluded),
  (181, .c127, .excluded),
  (246, .c153, .optional),
  (52, .c141, .excluded),
  (111, .optional, .excluded),
  (70, .mandatory, .excluded),
  (161, .c123, .excluded),
  (97, .optional, .excluded),
  (81, .mandatory, .excluded),
  (131, .c154, .excluded),
  (75, .mandatory, .excluded),
  (63, .optional, .excluded),
  (77, .mandatory, .excluded),
  (323, .c218, .excluded),
  (327, .c138, .excluded),
  (195, .mandatory, .excluded),
  (176, .mandatory, .excluded),
  (66, .optional, .excluded),
  (320, .c203, .excluded),
  (104, .c135, .excluded),
  (93, .c134, .excluded)]

end Verif.Cfg
