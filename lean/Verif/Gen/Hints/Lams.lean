/-!
Hints for claims of `tools/hints.py`.
-/

set_option maxRecDepth 100000

namespace Ebcc.Hints

def lams_CCD : List Nat := [
  1, 1, 1, 1, 1, 1, 1, 1, 1, 1, 65, 65, 66561, 66561, 1, 2113, 1, 1, 1, 1, 1, 1, 65537, 65537, 1090, 66, 66, 65, 5185,
  5186, 65538, 65538, 67239937, 65, 65, 65537, 67246082, 67246081, 67246081, 67244033, 67244033, 67244033, 67241985,
  67241985, 67239937, 67239937, 65, 65540, 134283265, 131138, 131137, 131137, 131138, 134283265, 65537, 65537,
  134287361, 134287361, 134283265, 134283265, 66561, 134283265, 134283265, 135331841, 135331841, 65537, 65537, 65537,
  4, 65537, 131137, 67247105, 66561, 65537, 65541, 134287362, 134287361, 134287361, 134284289, 134284289, 134284289,
  134284289, 65538, 65538, 65541, 134287362, 134287361, 134287361, 134284289, 134284289, 134284289, 134284289, 65538,
  65538, 65537, 65541, 134287362, 65537, 65541, 134287362, 134283265, 134283265, 134283265, 134283265, 134283265,
  134283265, 135331841, 135331841, 134284289, 134284289, 134289409, 134289409, 134284289, 134284289, 134284289,
  134284289, 1, 1, 1, 1, 1, 1, 1, 1, 1, 1, 1, 1, 1, 1, 1, 1, 1, 1, 1, 1, 1, 1, 1, 1, 1, 1, 1, 65537, 65538, 65537,
  65538, 1090, 5185, 5186, 5186, 1090, 65537, 65537, 65537, 65537, 65, 69633, 69633, 1090, 65537, 66561, 65537, 66561,
  65537, 65537, 69634, 65537, 65537, 69634, 1089, 1090, 66561, 65538, 65, 65, 65537, 65, 65, 65537, 66561, 65537,
  66561, 65, 65537, 65537, 65537, 65537, 65, 65, 65, 66, 66, 65, 1, 65, 65, 1089, 1089, 1, 1, 65537, 65537, 65537,
  65537, 65537, 66561, 65537, 66561, 1, 1, 67239937, 67239937, 134217793, 134217793, 65538, 134283265, 134283266,
  65538, 134283265, 134283266, 67241985, 67241986, 67241985, 67241986, 65537, 65537, 66565, 135331842, 135331842,
  67247105, 67247105, 67241985, 67241985, 65, 65, 65541, 65540, 134283266, 134283266, 65541, 65540, 134283266,
  134283266, 66, 66, 131137, 131137, 131138, 131138, 67241985, 67241985, 65541, 65540, 134283266, 134283266, 65541,
  65540, 134283266, 134283266, 67585, 1089, 1089, 65, 65, 67243009, 65537, 65537, 65538, 65538, 65537, 65537, 1,
  71682, 65538, 134283265, 134283266, 65538, 134283265, 134283266, 1, 134224961, 134224961, 65537, 134283266,
  134283266, 69, 69, 68, 68, 131138, 131138, 131138, 131138, 134219841, 134219841, 66561, 66561, 134219841, 134219841,
  134219841, 134219842, 134219841, 134219842, 67239937, 67239937, 134217793, 134217793, 65537, 65537, 4, 134288385,
  134288385, 8, 134288385, 134288385, 65538, 65541, 134284289, 134284289, 65538, 65541, 134284289, 134284289, 65538,
  134284289, 134284289, 66561, 66561, 135331841, 135331841, 135331841, 135331841, 65538, 65541, 134284289, 134284289,
  65538, 65541, 134284289, 134284289, 65538, 134284289, 134284289, 66561, 66561, 135331841, 135331841, 135331841,
  135331841, 66565, 66565, 135335938, 135335938, 65537, 134283265, 134283265, 65537, 134283265, 134283265, 65537,
  134283265, 134283265, 65537, 134283265, 134283265, 71, 71, 135234, 135234, 135233, 135233, 134284289, 134284289,
  65538, 65541, 134284289, 134284289, 65538, 65541, 134284289, 134284289, 65538, 134284289, 134284289, 65538, 65541,
  134284289, 134284289, 65538, 65541, 134284289, 134284289, 65538, 134284289, 134284289, 134287361, 134287362,
  134287361, 134287362, 134289409, 134289409, 134287361, 134287362, 134287361, 134287362, 134284289, 134284289,
  134287361, 134287362, 134287361, 134287362, 134289409, 134289409, 134287361, 134287362, 134287361, 134287362,
  134284289, 134284289, 134284289, 134284289, 4, 134218817, 134218817, 66561, 65538, 134283265, 134283266, 66566,
  66568, 135332866, 135332866, 66, 66, 132162, 132162, 132162, 132162, 66, 131137, 131138, 65537, 134283265, 66562,
  135331841, 135331842, 66, 131137, 131138, 65540, 134283265, 65542, 65544, 134284290, 134284290, 70, 70, 132162,
  132162, 132162, 132162, 69, 1183810, 134220865, 134220865, 134287362, 67243009, 67243009, 67245057, 67245057,
  67245057, 67245057, 67245057, 134222913, 134222913, 134222913, 4, 134288385, 134288385, 8, 134288385, 134288385, 70,
  70, 72, 72, 132162, 132162, 132162, 132162, 65538, 134284289, 134284289, 66, 66, 131137, 131137, 131138, 131138, 70,
  70, 72, 72, 132162, 132162, 132162, 132162, 65538, 134284289, 134284289, 65538, 134283265, 134283266, 65538,
  134283265, 134283266, 66565, 66565, 135335938, 135335938, 65537, 134283265, 134283265, 65537, 134283265, 134283265,
  65537, 134283265, 134283265, 65537, 134283265, 134283265, 65540, 134283266, 134283265, 65540, 134283266, 134283265,
  134284289, 134284289, 65538, 65538, 65541, 65541, 134284289, 134284289, 134284289, 134284289, 65538, 134284289,
  134284289, 65538, 65538, 65541, 65541, 134284289, 134284289, 134284289, 134284289, 65538, 134284289, 134284289,
  134287361, 134287362, 134287361, 134287362, 134289409, 134289409, 134287361, 134287362, 134287361, 134287362,
  134284289, 134284289, 134287361, 134287362, 134287361, 134287362, 134289409, 134289409, 134287361, 134287362,
  134287361, 134287362, 134284289, 134284289, 134284289, 134284289, 65541, 1, 65537, 134287362, 134283265, 65537,
  65537, 65537, 134283265, 134283265, 134283265, 134283265, 134283265, 134283265, 134283265, 65537, 65537, 65537,
  134283265, 134283265, 134283265, 134283265, 134283265, 134283265, 134283265, 65537, 65537, 65537, 65537, 134283265,
  65537, 65537, 134283265, 134283265, 134283265, 134283265, 134283265, 134283265, 134283265, 134283265, 134283265,
  134283265, 134283265, 134283265, 134283265, 134283265, 134283265, 134283265, 134283265, 65541, 1, 65537, 134287362,
  134283265, 65537, 65537, 65537, 134283265, 134283265, 134283265, 134283265, 134283265, 134283265, 134283265, 65537,
  65537, 65537, 134283265, 134283265, 134283265, 134283265, 134283265, 134283265, 134283265, 65537, 65537, 65537,
  65537, 134283265, 65537, 65537, 134283265, 134283265, 134283265, 134283265, 134283265, 134283265, 134283265,
  134283265, 134283265, 134283265, 134283265, 134283265, 134283265, 134283265, 134283265, 134283265, 134283265, 66565,
  5, 66565, 135335938, 135335938, 66561, 66561, 65537, 134283265, 134283265, 134283265, 134283265, 134283265,
  134283265, 134283265, 65537, 65537, 65537, 134283265, 134283265, 134283265, 134283265, 134283265, 134283265,
  134283265, 65537, 65537, 65537, 65537, 134283265, 65537, 65537, 134283265, 134283265, 134283265, 135331841,
  135331841, 134283265, 134283265, 135331841, 135331841, 134283265, 134283265, 134287361, 134287361, 134283265,
  134283265, 134287361, 134287361]

def lams_CC2 : List Nat := [
  1, 1, 1, 1, 1, 1, 1, 1, 1, 1, 1, 1, 1, 1, 1, 1, 4161, 6209, 65537, 65, 65537, 65537, 65, 67108993, 67108993, 65, 1,
  1, 67108993, 1089, 68288513, 65, 65, 67585, 65, 1, 1, 1, 69633, 69633, 65537, 65, 67108993, 65, 69633, 71681,
  139787829249, 67239937, 1, 66562, 65, 67241985, 134283265, 134284289, 68, 133185, 65, 67240961, 134283265,
  134219841, 206231961601, 65537, 67241985, 206225539201, 66565, 135333889, 66565, 135333889, 131137, 206231961601,
  206229733505, 135267393, 65540, 134285313, 134219841, 134219841, 206226587777, 206231961601, 137281, 201457729,
  203489409, 1089, 134283265, 65537, 1, 69633, 1, 1, 69633, 67239937, 69337089, 1, 66561, 71681, 65, 1, 1, 65537, 1,
  66561, 71681, 66, 1090, 1, 1, 1, 1, 66, 1090, 65537, 67108993, 137640345601, 65, 134283265, 65, 134283265,
  134283265, 135331841, 207366455297, 207366455297, 131137, 131137, 133185, 1, 1, 65537, 65538, 65538, 134284289,
  134284289, 134284289, 65537, 65537, 136314945, 134217793, 65537, 65537, 136314945, 134217793, 68609, 69633, 1089,
  6209, 68288513, 73531393, 69633, 71681, 65537, 66562, 70657, 72705, 66, 66, 66, 66, 67239937, 67239937, 134217793,
  206292648001, 65538, 65538, 65538, 65538, 138413121, 138413121, 140510273, 140510273, 69633, 68609, 68288513,
  73531393, 1, 65537, 1, 68289537, 68288513, 66, 66, 67239937, 67108993, 67108993, 1, 66562, 66562, 66562, 66562, 66,
  66, 1089, 4161, 65, 67108993, 67108993, 1, 135266369, 1, 65537, 65, 66, 1, 67239937, 67239937, 65537, 65537,
  135332865, 207366389825, 68289537, 68289537, 68289537, 68289537, 65538, 135266369, 135266369, 68288513, 68288513,
  65537, 207235383425, 4, 65537, 65543, 135331841, 134283265, 135331841, 134287361, 206296842305, 65541, 134287361,
  65537, 65538, 134283265, 134283265, 134287361, 134287361, 206296842305, 65541, 134287361, 65538, 134287361,
  134283265, 134283265, 206293762049, 65538, 134284289, 65538, 134284289, 65541, 134287361, 134284289, 134284289,
  206296842305, 206293762049, 134283265, 206292713473, 206292713473, 206292713473, 206292713473, 134284289, 134287361,
  65538, 134287361, 134283265, 134287361, 206293762049, 65538, 134284289, 65538, 134284289, 65541, 134287361,
  134284289, 134284289, 206296842305, 206293762049, 135331841, 207366455297, 207366455297, 206292713473, 206292713473,
  134284289, 134287361, 65542, 134283265, 65542, 135331841, 134283265, 134283265, 66561, 134284289, 134289409, 65537,
  134284289, 134284289, 65543, 206296842305, 2, 65538, 65542, 134283266, 134283265, 134285313, 206292713473,
  134285314, 206292714497, 206292714497, 206292714497, 206292713473, 206292713473, 134284290, 134289410, 206292714497,
  206292714497, 134284290, 134289409, 206292713473, 206292714497, 134286337, 134287361, 134290433, 134286337,
  206299004929, 206295793729, 68289537, 68289537, 68289537, 68289537, 138717233153, 138717233153, 134218817,
  135272513, 65541, 135270465, 135270465, 135270465, 135270465, 206294810625, 281683349864449, 206294745153,
  281683282755649, 134289409, 134289410, 134284290, 134284290, 206292714497, 206292714497, 206292713473, 206292714497,
  134287361, 134286337, 206299004929, 206295793729, 65541, 207236497473, 207236497473, 68293633, 68293633,
  137647685633, 211386613432321, 137647685633, 211386613432321, 137645588481, 137645588481, 137645588481,
  137645588481, 67240962, 67240962, 137641394177, 137641394177, 137641394177, 137641394177, 135272513, 135272513,
  207239577729, 207239577729, 135271490, 135271490, 67245057, 68293633, 68293633, 67240961, 68289537, 68289537, 70657,
  137645588481, 137645588481, 67245057, 67245057, 137645588481, 137647685633, 137647685633, 66561, 137641394177,
  137641394177, 67240961, 67240961, 137641394177, 137641394177, 137641394177, 134222913, 134220865, 134222913,
  134220865, 134222913, 134220865, 70, 72, 66, 132161, 137281, 67240961, 67240961, 67240961, 68921982977, 68921852033,
  68921852033, 68927094913, 68927094913, 68927094913, 65538, 134283266, 134283265, 134289409, 134284289, 134283265,
  206292713473, 206294745153, 1, 1, 1, 1, 1, 1, 1, 1, 1, 1, 1, 1, 1, 1, 1, 1, 1, 1, 1, 1, 1, 1, 1, 1, 1, 1, 1, 1, 1,
  1, 1, 1, 1, 1, 1, 1, 1, 1, 1, 1, 1, 1, 1, 1, 1, 1, 1, 1, 1, 65, 1, 1, 1, 1, 69633, 6209, 4161, 65, 6209, 4161, 1, 1,
  6209, 4161, 65, 66562, 65537, 66561, 65537, 66561, 65, 65537, 65537, 65, 65, 1089, 1089, 65, 1, 65537, 65537, 65537,
  71681, 69633, 65, 2113, 65537, 65537, 69633, 4161, 7233, 69633, 1, 1, 1, 65, 3137, 4161, 65537, 67585, 65, 1, 65,
  67108993, 66561, 65537, 67108993, 65, 65537, 65537, 134283265, 65537, 4161, 134283265, 65537, 68288513, 68288513,
  65537, 66561, 65537, 66561, 69633, 1, 1, 1, 67585, 65537, 1, 135266369, 135266369, 66561, 66561, 69633, 65537, 1, 1,
  66561, 69633, 65, 67108993, 67108993, 1, 65, 68609, 69633, 1, 65, 65, 65537, 134283265, 134283265, 65, 1, 65537,
  66561, 1, 67585, 65537, 1, 65537, 134283265, 134283265, 65, 65, 1, 1, 66562, 65, 65, 65, 66, 66, 135266369,
  135267393, 135266369, 135267393, 65538, 67239937, 67108993, 67108993, 68289537, 65537, 65537, 1, 66562, 65537,
  65537, 65537, 65537, 65537, 65537, 138412097, 66561, 71681, 1, 65537, 1, 69633, 135266369, 135266369, 135266369,
  135266369, 68289537, 65537, 65, 65537, 65538, 65537, 65538, 135266369, 65537, 67239937, 67108993, 67108993, 65537,
  65537, 68288513, 68288513, 68289537, 68289537, 65537, 66561, 65537, 66561, 66561, 65537, 67585, 134283265, 65537, 5,
  67585, 1, 65537, 69633, 135266369, 135266369, 135266369, 135266369, 135266369, 1, 1, 65537, 69633, 65, 65,
  138412097, 66561, 71681, 1, 69633, 1, 65, 66562, 66562, 135266369, 135266369, 138477569, 206229733505, 68927094913,
  68927094913, 66561, 66561, 69633, 65, 67108993, 67108993, 68289537, 68289537, 66561, 5185, 3137, 69, 69, 66, 66,
  131137, 131137, 133185, 133185, 1089, 1089, 1, 67585, 67585, 134219841, 134219841, 137647685633, 137647685633,
  134217793, 134217793, 65537, 134283265, 134285313, 65537, 134283265, 134285313, 66565, 135333889, 1, 69633,
  134284289, 134284289, 65537, 134218817, 206226587777, 206231961601, 134218817, 206226587777, 206231961601,
  134219841, 71, 131137, 66561, 69633, 206225539201, 206225539201, 67244033, 67585, 2113, 1, 2113, 2113, 5, 67585,
  66561, 69633, 66561, 206161707073, 66561, 5185, 7233, 1, 2113, 2113, 65537, 66561, 66561, 69633, 65537, 134283265,
  134283265, 65, 66561, 67585, 134283265, 65537, 134283265, 134285313, 65537, 134283265, 134285313, 69, 69, 66, 66,
  131137, 131137, 133185, 133185, 65, 133185, 66561, 66561, 69633, 69633, 138477569, 134217793, 1, 67585, 67585, 65,
  134219841, 68920934401, 69633, 66561, 1089, 1089, 135267393, 135267393, 68920934401, 68920934401, 206231961601,
  206231961601, 132161, 132161, 134217793, 134217793, 65543, 134283265, 134219841, 134219841, 137647685633,
  137647685633, 134218817, 206226587777, 206231961601, 134218817, 206226587777, 206231961601, 65, 65537, 65, 66561,
  5185, 7233, 67239937, 67239937, 65538, 134217793, 1, 1089, 1089, 67239937, 65, 65, 1, 65537, 65537, 69633, 69633,
  66561, 66561, 138412097, 138412097, 140509249, 140509249, 5186, 71435265, 65537, 65537, 134217793, 134217793,
  136314945, 136314945, 4161, 1089, 67239937, 71681, 138477569, 138477569, 212601012289, 140509249, 141557825, 65537,
  65537, 65537, 65537, 134283265, 134283265, 134283265, 134283265, 134283265, 206158561345, 206158561345, 1, 66562,
  66562, 134283265, 134283265, 134283265, 1, 1, 65, 68288513, 68288513, 68289537, 135266369, 135266369, 134283265,
  206158561345, 66561, 69634, 65537, 65537, 66561, 69633, 65, 67108993, 67108993, 135332865, 135332865, 1, 1, 69633,
  1089, 4161, 69337089, 67239937, 5185, 71434241, 5185, 71434241, 66562, 140510273, 65537, 134217793, 136314945,
  68609, 136380417, 68609, 135266369, 138477569, 141557825, 212601012289, 134283265, 66561, 65, 65, 65537, 66561,
  69633, 134217793, 134217793, 65537, 135267393, 135267393, 135266369, 135266369, 68288513, 67108993, 137640345601,
  65, 65537, 66562, 69634, 136315969, 134218817, 2113, 69337089, 1089, 67239937, 1089, 67239937, 65537, 134217793,
  136314945, 65537, 134283265, 3137, 70385665, 67108993, 69337089, 139787829249, 1, 65, 65, 4161, 1089, 71434241,
  73531393, 4161, 1089, 71434241, 73531393, 66561, 134217793, 65, 67239937, 69337089, 65, 67239937, 69337089, 69633,
  66561, 134217793, 6209, 71303297, 71303297, 144082796545, 73531393, 74579969, 65, 66561, 67239937, 65537, 65537,
  65537, 65537, 65, 67239937, 67108993, 67108993, 65, 65, 65, 65537, 65537, 134283265, 134283265, 134283265,
  134283265, 134283265, 68158593, 68158593, 138714021953, 138714021953, 1, 66, 66, 65537, 65537, 67239937, 4, 65544,
  134288385, 8, 65538, 134284289, 206293762049, 206293762049, 65538, 206293762049, 134284289, 134284289, 134284289,
  65542, 65543, 134287361, 134286337, 65542, 65543, 134287361, 134286337, 1094, 1182785, 66, 66, 132161, 132161,
  137281, 137281, 131137, 131137, 201457729, 201457729, 203489409, 203489409, 66, 132161, 206293762049, 206293762049,
  65538, 206293762049, 134284289, 134284289, 134284289, 65538, 65538, 65541, 65541, 134287361, 134287361, 134284289,
  134284289, 65538, 134284289, 66, 66, 132161, 132161, 137281, 137281, 131137, 131137, 201457729, 201457729,
  203489409, 203489409, 66, 132161, 206293762049, 206293762049, 65543, 206293762049, 134284289, 134284289, 134284289,
  65538, 65538, 65541, 65541, 134287361, 134287361, 134284289, 134284289, 65538, 134284289, 65538, 134284289,
  206293762049, 206293762049, 65543, 206293762049, 134284289, 134284289, 134284289, 65538, 65538, 65541, 65541,
  134287361, 134287361, 134284289, 134284289, 65538, 134284289, 66, 132161, 207370584129, 207370584129, 66565, 66565,
  134283265, 134283265, 65, 65, 131137, 131137, 133185, 133185, 134283265, 206292713473, 206292713473, 134283265,
  206292713473, 206292713473, 65537, 134283265, 134283265, 65537, 134283265, 134283265, 134287361, 134287361, 65537,
  134283265, 134283265, 65537, 134283265, 134283265, 134283265, 206292713473, 206292713473, 134283265, 206292713473,
  206292713473, 134283265, 134283265, 134287361, 134287361, 68, 68, 201392257, 201392257, 72, 136257, 65538,
  134284289, 134287361, 134287361, 206296842305, 206296842305, 134287361, 134289409, 134287361, 134287361,
  206296842305, 206296842305, 134284289, 134287361, 134287361, 134287361, 206296842305, 206296842305, 134289409,
  135233, 134287361, 134287361, 206296842305, 206296842305, 135233, 134284289, 4, 68, 132161, 206226587777,
  206226587777, 206226587777, 67240961, 67240961, 134218817, 65538, 1094, 1096, 1182785, 1184833, 66, 66, 134209,
  134209, 65538, 134284289, 134289409, 134283265, 206292713473, 206294745153, 66, 132161, 67, 206226587777,
  206230782081, 206230782081, 134218817, 67245057, 67245057, 65542, 65544, 134286337, 134288385, 65542, 134286337,
  65542, 134286337, 66, 132161, 1096, 1184833, 66, 132161, 137281, 131137, 201457729, 203489409, 68289537,
  206292713473, 65537, 66562, 135332865, 135337985, 134218817, 206226587777, 206231961601, 68290561, 66, 132161,
  137281, 134218817, 206226587777, 206231961601, 65544, 134288385, 68, 132161, 133185, 201457729, 72, 136257,
  134220865, 134220865, 206226587777, 67243009, 134224961, 206230782081, 134222913, 134287361, 68921982977, 134222913,
  135233, 68921982977, 4, 65544, 134288385, 8, 65538, 134284289, 206293762049, 206293762049, 206293762049, 134284289,
  65538, 134284289, 134284289, 65542, 65543, 134287361, 134286337, 65542, 65543, 134287361, 134286337, 65538,
  134286337, 66, 66, 132161, 132161, 137281, 137281, 131137, 131137, 201457729, 201457729, 203489409, 203489409,
  65538, 134284289, 206293762049, 206293762049, 206293762049, 134284289, 65538, 134284289, 134284289, 65538, 65538,
  65541, 65541, 134287361, 134287361, 134284289, 134284289, 65538, 134284289, 65538, 134284289, 134289409, 134283265,
  206292713473, 206294745153, 65538, 134284289, 134289409, 134283265, 206292713473, 206294745153, 66, 132161,
  206293762049, 206293762049, 206293762049, 134284289, 65543, 134284289, 134284289, 65538, 65538, 65541, 65541,
  134287361, 134287361, 134284289, 134284289, 65538, 134284289, 65538, 134284289, 206293762049, 206293762049,
  206293762049, 134284289, 65543, 134284289, 134284289, 65538, 65538, 65541, 65541, 134287361, 134287361, 134284289,
  134284289, 65538, 134284289, 66, 132161, 207370584129, 207370584129, 134283265, 134283265, 66565, 66565, 65537,
  134283265, 134285313, 65537, 134283265, 134285313, 134283265, 206292713473, 206292713473, 134283265, 206292713473,
  206292713473, 65537, 134283265, 134283265, 65537, 134283265, 134283265, 134287361, 134287361, 65537, 134283265,
  134283265, 65537, 134283265, 134283265, 134283265, 206292713473, 206292713473, 134283265, 206292713473,
  206292713473, 134283265, 134283265, 134287361, 134287361, 68, 68, 201392257, 201392257, 65544, 134288385, 65538,
  134284289, 134287361, 134289409, 206296842305, 206296842305, 134287361, 134287361, 134284289, 134287361,
  206296842305, 206296842305, 134287361, 134287361, 134289409, 134287361, 206296842305, 206296842305, 134287361,
  134287361, 135233, 134284289, 206296842305, 206296842305, 134287361, 134287361, 2, 69, 1094, 1183809, 1181762,
  1180738, 1185858, 1275200577, 1275200577, 1180738, 1275200577, 1185857, 1275199553, 1179714, 1275200577, 1275200577,
  1182785, 1277231233, 1186881, 1281491009, 1275200577, 1278279809, 1376604323969, 65, 65, 133185, 133185, 133186,
  133186, 133186, 133186, 133185, 133185, 131138, 131138, 131138, 131138, 201458753, 201458753, 201458753, 201458753,
  201458753, 201458753, 201457729, 201457729, 131138, 131138, 131137, 131137, 201458753, 201458753, 201457729,
  201457729, 201458753, 201458753, 201457729, 201457729, 131137, 131137, 133185, 133185, 203489409, 203489409, 133185,
  133185, 201457729, 201457729, 201458753, 201458753, 277092696193, 277092696193, 203554881, 203554881, 203489409,
  203489409, 134222913, 134218817, 135271489, 135267393, 135271489, 135267393, 134224961, 135273537, 135273537, 70,
  70657, 67245057, 67245057, 137645588481, 137645588481, 137645588481, 137647685633, 137647685633, 65538, 1089,
  134218817, 134218817, 206159609921, 206159609921, 206159609921, 206161707073, 206161707073, 67243009, 67243009,
  67243009, 134222913, 134222913, 134222913, 66, 132161, 131137, 131138, 137281, 131137, 201457729, 203489409,
  135270465, 135270465, 135333889, 135333889, 135270465, 1185857, 207303475329, 207303475329, 1093, 68292609,
  68292609, 138718281729, 68292609, 69, 69, 68292609, 68292609, 68292609, 68292609, 68289537, 68289537, 68289537,
  68289537, 138717233153, 138717233153, 67245058, 68293633, 137645588481, 137645588481, 137645588481, 137645588481,
  138721428481, 212486124994625, 68293633, 138721427457, 67245058, 67245058, 68293633, 68293633, 137645588481,
  137645588481, 137645588481, 137645588481, 212486124994625, 212486124994625, 206159609921, 206159609921,
  206159609921, 206159609921, 207235449921, 207235449921, 135271490, 207239577729, 135271490, 135271490, 207239577729,
  207239577729, 70657, 67245057, 67245057, 137645588481, 137645588481, 137645588481, 137645588481, 137645588481,
  67245057, 67245057, 67245057, 65538, 134284289, 134289409, 134218817, 206226587777, 206231961601, 134218817,
  206226718721, 206231961601, 134218817, 206226718721, 206231961601, 65541, 2, 65538, 134286337, 134285313, 134284290,
  134289410, 206292714497, 206292714497, 134285313, 206292713473, 134284290, 206292714497, 134283265, 206292713473,
  206292713473, 134283265, 206294810625, 134286337, 206295793729, 206292713473, 206294810625, 281683349864449, 65537,
  134285313, 134285314, 134285314, 134283266, 206292714497, 206292714497, 134285313, 134283266, 206292714497,
  206292713473, 134283266, 206292714497, 206292714497, 134283265, 206292713473, 206292713473, 134283265, 134285313,
  206294745153, 134285313, 206292713473, 206292714497, 281683282755649, 206294810625, 206294745153, 65537, 134285313,
  134285314, 134285314, 134283266, 206292714497, 206292714497, 134285313, 134283266, 206292714497, 206292713473,
  134283266, 206292714497, 206292714497, 134283265, 206292713473, 206292713473, 134283265, 134285313, 206294745153,
  134285313, 206292713473, 206292714497, 281683282755649, 206294810625, 206294745153, 67240961, 68289537, 68289537,
  67244033, 68292609, 68292609, 134218817, 135267393, 135267393, 66, 66561, 67240961, 67240961, 137641394177,
  137641394177, 137641394177, 137643491329, 137643491329, 66, 66561, 67240961, 67240961, 137641394177, 137641394177,
  137641394177, 137643491329, 137643491329, 67240961, 67240961, 67240961, 67240961, 67240961, 67240961, 66, 132161,
  131138, 131137, 137281, 131137, 201457729, 203489409, 134285313, 68288513, 135270465, 135270465, 67247105, 67247105,
  207237480577, 207237480577, 65, 68288513, 68288513, 68288513, 138714087425, 68293633, 68293633, 68293633, 68293633,
  68289537, 68289537, 68289537, 68289537, 134218817, 135267393, 206159609921, 206159609921, 206159609921,
  206159609921, 206161707073, 281476251910209, 67245058, 67245058, 68293633, 68293633, 137645588481, 137645588481,
  137645588481, 137645588481, 138721428481, 138721428481, 212486124994625, 212486124994625, 68289537, 138717233153,
  66566, 134286337, 66566, 134286337, 207237546049, 207233351745, 207237546049, 207233351745, 206159609921,
  206159609921, 206159609921, 206159609921, 134218817, 206161707073, 5185, 134222913, 134222913, 206163804225,
  206163804225, 206163804225, 206163804225, 206163804225, 134222913, 134222913, 134222913, 65538, 134284289,
  134289409, 67240961, 67240961, 67240961, 68921982977, 68921852033, 68921852033, 68927094913, 68927094913,
  68927094913, 65537, 206292713473, 1, 65537, 65537, 134283265, 134283265, 134287361, 134283265, 206292713473, 65537,
  134283265, 65537, 65537, 134283265, 134283265, 134287361, 134283265, 206292713473, 65537, 134283265, 65537,
  134283265, 134283265, 134283265, 206292713473, 65537, 134283265, 65537, 134283265, 65537, 134283265, 134283265,
  134283265, 206292713473, 206292713473, 134283265, 206292713473, 206292713473, 206292713473, 206292713473, 134283265,
  134283265, 65537, 134283265, 134283265, 134283265, 206292713473, 65537, 134283265, 65537, 134283265, 65537,
  134283265, 134283265, 134283265, 206292713473, 206292713473, 134283265, 206292713473, 206292713473, 206292713473,
  206292713473, 134283265, 134283265, 65537, 134283265, 65537, 134283265, 134283265, 134283265, 65537, 134283265,
  134283265, 65537, 134283265, 134283265, 65541, 206296842305, 65537, 206292713473, 1, 65537, 65537, 134283265,
  134283265, 134287361, 134283265, 206292713473, 65537, 134283265, 65537, 65537, 134283265, 134283265, 134287361,
  134283265, 206292713473, 65537, 134283265, 65537, 134283265, 134283265, 134283265, 206292713473, 65537, 134283265,
  65537, 134283265, 65537, 134283265, 134283265, 134283265, 206292713473, 206292713473, 134283265, 206292713473,
  206292713473, 206292713473, 206292713473, 134283265, 134283265, 65537, 134283265, 134283265, 134283265,
  206292713473, 65537, 134283265, 65537, 134283265, 65537, 134283265, 134283265, 134283265, 206292713473,
  206292713473, 134283265, 206292713473, 206292713473, 206292713473, 206292713473, 134283265, 134283265, 65537,
  134283265, 65537, 134283265, 134283265, 134283265, 65537, 134283265, 134283265, 65537, 134283265, 134283265, 65541,
  206296842305, 66565, 207370584129, 5, 65537, 65541, 135331841, 134283265, 135335937, 134283265, 206292713473, 65537,
  134283265, 65537, 65541, 135331841, 134283265, 135335937, 134283265, 206292713473, 65537, 134283265, 65537,
  134283265, 134283265, 134287361, 206292713473, 65537, 134283265, 65537, 134283265, 65537, 134283265, 134283265,
  134283265, 206292713473, 206292713473, 135331841, 207366455297, 207366455297, 206292713473, 206292713473, 134283265,
  134283265, 65537, 134283265, 134283265, 134287361, 206292713473, 65537, 134283265, 65537, 134283265, 65537,
  134283265, 134283265, 134283265, 206292713473, 206292713473, 135331841, 207366455297, 207366455297, 206292713473,
  206292713473, 134283265, 134283265, 65537, 135331841, 65537, 135331841, 134283265, 134283265, 66561, 134283265,
  134287361, 66561, 134283265, 134287361, 66565, 207370584129]

def lams_CCSD : List Nat := [
  1, 1, 1, 1, 1, 1, 1, 1, 1, 1, 1, 1, 1, 1, 1, 1, 65537, 1, 1, 1, 71681, 69633, 134283265, 65, 65537, 65538, 66562,
  65538, 65538, 65537, 67585, 65537, 65537, 65538, 65538, 65537, 2113, 134283265, 134283265, 65537, 1, 1, 69634, 65,
  66, 5185, 5186, 66561, 65537, 65537, 67585, 65537, 1, 1, 1, 65537, 65537, 65537, 69633, 69633, 65537, 65537, 71681,
  69633, 71303297, 144082796545, 65537, 134217793, 68288513, 65538, 66562, 65, 66561, 131137, 134219841, 134219841,
  134219841, 67239937, 67239937, 65, 134283266, 134283265, 65537, 134284289, 134283266, 134283265, 67241985, 68,
  133185, 131137, 134219841, 134219841, 206225539201, 1093, 1093, 1181761, 1181761, 1179714, 1179714, 1179714,
  1179714, 1179714, 1179714, 134283265, 206231961601, 206226587777, 134289409, 206294745153, 206292713473,
  68927094913, 68925128705, 68289537, 67240961, 65, 65, 134219841, 134283265, 65540, 134285313, 134283265, 132161,
  206231961601, 1, 69337089, 67239937, 134284289, 206292648001, 1, 1, 66561, 71681, 65, 1, 69633, 1, 1, 1, 65537, 65,
  138714021953, 1, 69633, 1, 69633, 66561, 71681, 1, 65537, 67108993, 1, 1, 134285313, 134287361, 134287361,
  134283265, 134283265, 134283265, 134283265, 134283265, 135331841, 135331841, 135331841, 65, 134283265, 134283265,
  135331841, 207366455297, 207366455297, 131137, 131137, 1, 65538, 65538, 66561, 69633, 65, 67108993, 67108993, 1, 1,
  1, 65537, 65538, 65538, 134217793, 134284289, 206292648001, 134284289, 134284289, 66, 66, 69338113, 67240961, 66,
  66, 69338113, 67240961, 69633, 68609, 1089, 6209, 68288513, 73531393, 1, 1090, 1090, 1090, 1090, 65538, 65537,
  65537, 207366389825, 135267393, 135267393, 135267393, 135267393, 65537, 135267393, 135266369, 65538, 65538,
  134217793, 134283265, 134283265, 1, 65537, 65537, 136314945, 134217793, 65, 65, 69337089, 67239937, 69633, 68609,
  68288513, 73531393, 65537, 65537, 66562, 134283265, 135266369, 65537, 65, 66, 135332865, 135266369, 135266369,
  135266369, 135266369, 71681, 69633, 65538, 65538, 66, 66, 67239937, 67239937, 1, 1, 134217793, 134217793, 72705,
  70657, 65537, 1089, 4, 134224961, 138717167681, 65537, 65543, 135331841, 134283265, 135331841, 134287361,
  206296842305, 65541, 134287361, 134287362, 65537, 65538, 134283265, 134283265, 134287361, 134287361, 206296842305,
  65541, 134287361, 134287362, 65538, 134287361, 134283265, 134283265, 206293762049, 65538, 65538, 134284289,
  134284289, 134287361, 134287361, 134284289, 134284289, 134284289, 134284289, 65541, 134287361, 134287362, 134284289,
  134284289, 206296842305, 206293762049, 134283265, 206292713473, 206292713473, 206292713473, 206292713473, 134287361,
  134284289, 65538, 134287361, 134283265, 134287361, 206293762049, 65538, 65538, 134284289, 134284289, 134287361,
  134287361, 134284289, 134284289, 134284289, 134284289, 65541, 134287361, 134287362, 134284289, 134284289,
  206296842305, 206293762049, 135331841, 207366455297, 207366455297, 206292713473, 206292713473, 134287361, 134284289,
  134283265, 134283265, 66561, 134284289, 134284289, 134284289, 134289409, 134289409, 134289409, 65537, 134284289,
  134284289, 134284289, 134284289, 134284289, 134284289, 65542, 134283265, 134283265, 134283265, 134283265, 134283265,
  65542, 134283265, 134283265, 135331841, 135331841, 135331841, 135234, 205586561, 2, 66, 70, 131138, 131137, 133185,
  203554881, 201457729, 277159804993, 133186, 203489409, 201458753, 277092696193, 201458753, 201458753, 201457729,
  201457729, 132162, 137282, 201458753, 201458753, 132162, 137281, 201457729, 201458753, 135233, 134209, 138305,
  134209, 207749185, 204537985, 68289537, 68289537, 68289537, 68289537, 138717233153, 138717233153, 68289537,
  67246081, 65541, 135270465, 135270465, 135270465, 135270465, 134284290, 134289410, 206292714497, 206292714497,
  134284290, 134289409, 206292713473, 206292714497, 134287361, 134286337, 206299004929, 206295793729, 69,
  138718281729, 138718281729, 67245057, 67245057, 68293633, 68293633, 211386613432321, 211386613432321, 137645588481,
  137645588481, 137645588481, 137645588481, 207235449921, 207235449921, 206159609921, 206159609921, 206159609921,
  206159609921, 68294657, 68294657, 67245057, 67245057, 138721361985, 138721361985, 134218817, 134221889, 135267393,
  135270465, 135267393, 135270465, 66561, 137641394177, 137641394177, 67240961, 67240961, 137641394177, 137641394177,
  137641394177, 70657, 137645588481, 137645588481, 67245057, 67245057, 137645588481, 137647685633, 137647685633,
  134222913, 134220865, 134222913, 134220865, 134222913, 134220865, 65542, 65544, 66, 137281, 132161, 67240961,
  67240961, 67240961, 68927094913, 68927094913, 68927094913, 68921982977, 68921852033, 68921852033, 65538, 134283266,
  134283265, 134289409, 134284289, 134283265, 206294745153, 206292713473, 1, 1, 1, 1, 1, 1, 1, 1, 1, 1, 1, 1, 1, 1, 1,
  1, 1, 1, 1, 1, 1, 1, 1, 1, 1, 1, 1, 1, 1, 1, 1, 1, 1, 1, 1, 1, 1, 1, 1, 1, 1, 1, 1, 1, 1, 1, 1, 4161, 6209, 4161,
  69633, 71681, 65, 65537, 1, 1, 65537, 65537, 1, 1, 1, 65537, 1, 65, 65, 1, 1, 1, 1, 1, 65, 1090, 65, 65, 1089, 1089,
  65537, 65, 65, 65, 1089, 1089, 65, 65, 4162, 4161, 65, 65, 65, 67108993, 67108993, 66561, 69633, 1090, 65537, 65537,
  65537, 65537, 4161, 66561, 66562, 68609, 69633, 5186, 65, 65, 1089, 1089, 134283265, 134283265, 1090, 65, 65, 66,
  66, 65537, 67585, 65537, 65537, 4162, 65, 69633, 69633, 69633, 6209, 4161, 134283265, 65, 65, 65, 66, 66, 65, 1089,
  4161, 7233, 65, 66561, 66562, 135266369, 135266369, 65537, 66561, 65537, 66561, 69633, 71681, 65, 66, 65537, 65537,
  65, 65, 65, 2113, 65, 65, 65, 65, 65, 65, 65537, 65, 67108993, 67108993, 65537, 65537, 65537, 65537, 65, 4161, 65,
  65, 65, 67108993, 65537, 134283265, 65, 65537, 65537, 1089, 65, 134283265, 65537, 65537, 65, 66561, 1, 65, 66561,
  65537, 65537, 65537, 66562, 66562, 135266369, 135266369, 1, 67585, 65537, 1, 1, 65537, 65537, 66, 66, 1, 65537,
  65537, 1089, 1089, 65537, 1, 65537, 66561, 65537, 65537, 65537, 66561, 69633, 1, 66562, 66562, 135266369, 135266369,
  1, 1, 1, 65537, 67585, 66561, 66561, 69633, 68289537, 65, 65, 68288513, 68288513, 68289537, 68289537, 66, 65, 5,
  67585, 1, 65537, 69633, 66561, 65537, 67585, 134283265, 65537, 65, 135267393, 135266369, 135266369, 135266369,
  135266369, 1, 65, 1, 69633, 69634, 69634, 138412097, 66561, 71681, 65, 68288513, 135266369, 135267393, 135266369,
  135267393, 65, 65, 134217793, 134283265, 134283265, 68288513, 68288513, 68288513, 68288513, 68288513, 69634, 69634,
  138412097, 66561, 71681, 1, 65537, 1, 69633, 67239937, 67108993, 67108993, 1, 1, 65537, 69633, 66561, 66561,
  67244033, 134284289, 134284289, 2113, 1, 206225539201, 206225539201, 65538, 134284289, 134283265, 134283266,
  134289409, 134283265, 206292713473, 206294745153, 65538, 134284289, 134283265, 134283266, 134289409, 134283265,
  206292713473, 206294745153, 71, 131137, 68925128705, 134219841, 134219842, 134219841, 134219842, 65, 65, 131137,
  131137, 131137, 131137, 131138, 131138, 133185, 133185, 67243009, 67243009, 137643491329, 137643491329, 134217793,
  134217793, 67239937, 67239937, 69, 69, 68, 68, 131138, 131138, 131138, 131138, 133185, 133185, 133185, 133185,
  66565, 135333889, 135331842, 135331842, 68927094913, 68927094913, 67241985, 67241985, 67241985, 65537, 135267393,
  135267393, 134218817, 206226587777, 206231961601, 134218817, 206226587777, 206231961601, 134217793, 134217793,
  134219841, 134219841, 1, 2113, 2113, 69633, 69633, 69634, 69634, 138477569, 67241985, 67241985, 67241985, 65537, 65,
  6210, 5, 67585, 134220865, 206161707073, 66561, 5185, 7233, 66561, 7233, 5185, 66561, 2113, 67108993, 67585, 2113,
  134219841, 134219841, 134219841, 67239937, 67239937, 67239937, 67239937, 132161, 132161, 65, 65, 69634, 69634,
  138477569, 206231961601, 206231961601, 65, 65, 131137, 131137, 131137, 131137, 131138, 131138, 133185, 133185, 65,
  67239937, 1, 2113, 2113, 67243009, 67243009, 137643491329, 137643491329, 1, 67240961, 67240961, 68921982977,
  68921982977, 68927094913, 68927094913, 67239937, 67239937, 135267393, 135267393, 67241985, 67241985, 71, 131137,
  206225539201, 69633, 65, 133185, 131138, 131138, 69, 69, 68, 68, 131138, 131138, 131138, 131138, 133185, 133185,
  133185, 133185, 69633, 65538, 134284289, 134283265, 134283266, 134289409, 134283265, 206292713473, 206294745153,
  65538, 134284289, 134283265, 134283266, 134289409, 134283265, 206292713473, 206294745153, 134219841, 134219842,
  134219841, 134219842, 206225539201, 206225539201, 65537, 65, 135266369, 135266369, 68289537, 68288513, 68288513,
  134283265, 206158561345, 134217793, 134283265, 134283265, 134283265, 1, 67239937, 1, 69633, 1089, 4161, 71434241,
  73531393, 5185, 71434241, 5185, 71434241, 1090, 73532417, 65, 67239937, 69337089, 3137, 69206145, 68609, 135266369,
  138477569, 141557825, 212601012289, 66561, 7233, 5185, 65537, 65537, 65537, 65537, 134283265, 134283265, 134283265,
  134283265, 134283265, 206158561345, 206158561345, 134217793, 134217793, 1, 65, 65, 4161, 1089, 71434241, 73531393,
  4161, 1089, 71434241, 73531393, 5186, 71435265, 65, 67239937, 69337089, 65, 67239937, 69337089, 69633, 66561,
  134217793, 6209, 71303297, 71303297, 144082796545, 73531393, 74579969, 66, 134217793, 66562, 66562, 134283265,
  134283265, 1, 67239937, 67108993, 67108993, 1, 65, 68158593, 68158593, 1, 66561, 5185, 7233, 1089, 67239937, 65537,
  65537, 65537, 65537, 134283265, 134283265, 134283265, 134283265, 206158561345, 206158561345, 134283265, 1,
  134217793, 1, 1, 67239937, 67239937, 1, 65, 65, 69633, 69633, 66561, 66561, 138412097, 138412097, 140509249,
  140509249, 66561, 134217793, 65537, 65537, 134217793, 134217793, 136314945, 136314945, 4161, 1089, 67239937, 71681,
  138477569, 138477569, 212601012289, 140509249, 141557825, 134283265, 66562, 66562, 134283265, 134283265, 65, 65,
  1090, 4162, 71435265, 73532417, 2113, 69337089, 66561, 66561, 134217793, 134217793, 65, 67239937, 69337089, 65537,
  134283265, 68609, 137363521, 134283265, 136314945, 208306044993, 1, 65537, 65, 68289537, 68289537, 68288513,
  68288513, 68288513, 134283265, 206158561345, 65537, 135332865, 135332865, 4, 134288385, 134288385, 72, 136257, 8,
  134288385, 134288385, 65538, 134284289, 65538, 206293762049, 206293762049, 134284289, 134284289, 206293762049,
  134284289, 70, 70, 72, 72, 132162, 132162, 132162, 132162, 136257, 136257, 134209, 134209, 66566, 135334913,
  135332866, 135332866, 66561, 135331841, 135331841, 135331841, 135331841, 135331841, 207366455297, 207366455297,
  66561, 135331841, 135331841, 135331841, 135331841, 135331841, 207366455297, 207366455297, 65538, 134284289, 65538,
  206293762049, 206293762049, 134284289, 134284289, 206293762049, 134284289, 65538, 65538, 65541, 65541, 134284289,
  134284289, 134284289, 134284289, 134287361, 134287361, 134284289, 134284289, 65538, 134284289, 134284289, 134284289,
  66561, 135331841, 135331841, 135331841, 135331841, 135331841, 207366455297, 207366455297, 66561, 135331841,
  135331841, 135331841, 135331841, 135331841, 207366455297, 207366455297, 66, 132161, 65543, 206293762049,
  206293762049, 134284289, 134284289, 206293762049, 134284289, 65538, 65538, 65541, 65541, 134284289, 134284289,
  134284289, 134284289, 134287361, 134287361, 134284289, 134284289, 65538, 134284289, 134284289, 134284289, 66,
  132161, 65543, 206293762049, 206293762049, 134284289, 134284289, 206293762049, 134284289, 65538, 65538, 65541,
  65541, 134284289, 134284289, 134284289, 134284289, 134287361, 134287361, 134284289, 134284289, 65538, 134284289,
  134284289, 134284289, 66, 132161, 66565, 66565, 134283265, 134283265, 135335938, 135335938, 207370584129,
  207370584129, 65537, 65537, 134283265, 134283265, 134283265, 134283265, 134283265, 134283265, 134283265, 134283265,
  134283265, 206292713473, 206292713473, 134283265, 206292713473, 206292713473, 134287361, 134287361, 65537, 65537,
  134283265, 134283265, 134283265, 134283265, 134283265, 134283265, 134283265, 134283265, 134283265, 206292713473,
  206292713473, 134283265, 206292713473, 206292713473, 134283265, 134283265, 134287361, 134287361, 68, 68, 131137,
  131137, 131138, 131138, 201392257, 201392257, 134284289, 134284289, 72, 136257, 134284289, 134284289, 65538,
  134284289, 206296842305, 206296842305, 134287361, 134287361, 134287361, 134287361, 134287362, 134287361, 134287362,
  134289409, 134289409, 134289409, 206296842305, 206296842305, 135233, 134287361, 134287361, 134287361, 134287362,
  134287361, 134287362, 134284289, 134284289, 134284289, 206296842305, 206296842305, 135233, 134287361, 134287361,
  134287361, 134287362, 134287361, 134287362, 134289409, 134289409, 134289409, 206296842305, 206296842305, 135233,
  134287361, 134287361, 134287361, 134287362, 134287361, 134287362, 134284289, 134284289, 134284289, 4, 134218817,
  134218817, 65540, 134284289, 65538, 67240961, 68921982977, 206226587777, 206226587777, 67240961, 67240961, 1094,
  1096, 1180738, 1180738, 1182785, 1184833, 66, 66, 134209, 134209, 132162, 132162, 132162, 132162, 66, 132161,
  131137, 131138, 137281, 131137, 201457729, 203489409, 66, 132161, 67245057, 67245057, 206230782081, 206230782081,
  68921982977, 65539, 67240961, 65542, 65544, 134284290, 134284290, 134288385, 134286337, 65542, 134286337, 134284290,
  134284290, 65542, 134286337, 134284290, 134284290, 66, 132161, 1096, 1184833, 65538, 134284289, 134283265,
  134283266, 134289409, 134283265, 206292713473, 206294745153, 65537, 68289537, 134283265, 206292713473, 1090,
  1180737, 1179713, 1179714, 1185857, 134218817, 206226587777, 206231961601, 135268417, 66, 132161, 131137, 131138,
  137281, 134218817, 206226587777, 206231961601, 134222913, 134222913, 65544, 134288385, 65540, 134284289, 134283265,
  134285313, 206292713473, 72, 136257, 135335938, 134220865, 206226587777, 67243009, 67243009, 67243009, 134287362,
  134224961, 206230782081, 67243009, 67243009, 67243009, 68921982977, 67245057, 135233, 134222913, 134222913,
  134222913, 67245057, 68921982977, 135233, 134222913, 134222913, 134222913, 4, 134288385, 134288385, 72, 136257, 8,
  134288385, 134288385, 65538, 134284289, 65538, 206293762049, 134284289, 206293762049, 206293762049, 134284289,
  134284289, 70, 70, 72, 72, 132162, 132162, 132162, 132162, 134209, 134209, 136257, 136257, 66, 134209, 132162,
  132162, 66561, 135331841, 135331841, 135331841, 135331841, 135331841, 207366455297, 207366455297, 66561, 135331841,
  135331841, 135331841, 135331841, 135331841, 207366455297, 207366455297, 65538, 134284289, 65538, 206293762049,
  134284289, 206293762049, 206293762049, 134284289, 134284289, 65538, 65538, 65541, 65541, 134284289, 134284289,
  134284289, 134284289, 134284289, 134284289, 134287361, 134287361, 65538, 134284289, 134284289, 134284289, 66561,
  135331841, 135331841, 135331841, 135331841, 135331841, 207366455297, 207366455297, 66561, 135331841, 135331841,
  135331841, 135331841, 135331841, 207366455297, 207366455297, 66, 132161, 65543, 206293762049, 134284289,
  206293762049, 206293762049, 134284289, 134284289, 65538, 65538, 65541, 65541, 134284289, 134284289, 134284289,
  134284289, 134284289, 134284289, 134287361, 134287361, 65538, 134284289, 134284289, 134284289, 66, 132161, 65543,
  206293762049, 134284289, 206293762049, 206293762049, 134284289, 134284289, 65538, 65538, 65541, 65541, 134284289,
  134284289, 134284289, 134284289, 134284289, 134284289, 134287361, 134287361, 65538, 134284289, 134284289, 134284289,
  66, 132161, 66565, 66565, 134283265, 134283265, 135335938, 135335938, 207370584129, 207370584129, 65537, 65537,
  134283265, 134283265, 134283265, 134283265, 134283265, 134283265, 134283265, 134283265, 134283265, 134283265,
  206292713473, 206292713473, 206292713473, 206292713473, 134287361, 134287361, 65537, 65537, 134283265, 134283265,
  134283265, 134283265, 134283265, 134283265, 134283265, 134283265, 134283265, 134283265, 206292713473, 206292713473,
  206292713473, 206292713473, 134283265, 134283265, 134287361, 134287361, 68, 68, 131138, 131138, 131137, 131137,
  201392257, 201392257, 134284289, 134284289, 72, 136257, 134284289, 134284289, 65538, 134284289, 134287361,
  134287361, 134287361, 206296842305, 206296842305, 134287361, 134287362, 134287361, 134287362, 134289409, 134289409,
  134289409, 134287361, 134287361, 135233, 206296842305, 206296842305, 134287361, 134287362, 134287361, 134287362,
  134284289, 134284289, 134284289, 134287361, 134287361, 135233, 206296842305, 206296842305, 134287361, 134287362,
  134287361, 134287362, 134289409, 134289409, 134289409, 134287361, 134287361, 134287361, 206296842305, 206296842305,
  134287361, 134287362, 134287361, 134287362, 134284289, 134284289, 134284289, 65541, 2, 1094, 1183809, 1181762,
  1185858, 1180738, 1275200577, 1275200577, 1180738, 1275200577, 1185857, 1275199553, 1179714, 1275200577, 1275200577,
  1182785, 1277231233, 1186881, 1281491009, 1275200577, 1278279809, 1376604323969, 65537, 134285313, 134285314,
  134285314, 134283266, 206292714497, 206292714497, 134285313, 134283266, 206292714497, 206292713473, 134283266,
  206292714497, 206292714497, 134283265, 206292713473, 206292713473, 134283265, 134285313, 206294745153, 134285313,
  206292714497, 206292713473, 281683282755649, 206294810625, 206294745153, 65537, 134285313, 134285314, 134285314,
  134283266, 206292714497, 206292714497, 134285313, 134283266, 206292714497, 206292713473, 134283266, 206292714497,
  206292714497, 134283265, 206292713473, 206292713473, 134283265, 134285313, 206294745153, 134285313, 206292714497,
  206292713473, 281683282755649, 206294810625, 206294745153, 134218817, 134221889, 135267393, 135270465, 135267393,
  135270465, 134222913, 135271489, 135271489, 65538, 1089, 134218817, 134218817, 206159609921, 206159609921,
  206159609921, 206161707073, 206161707073, 65542, 5185, 134222913, 134222913, 206163804225, 206163804225,
  206163804225, 206165901377, 206165901377, 67243009, 67243009, 67243009, 67245057, 67245057, 67245057, 66, 132161,
  131137, 131138, 137281, 131137, 201457729, 203489409, 135337985, 68292609, 68292609, 68292609, 66565, 135270465,
  135270465, 207236497473, 135270465, 135267393, 135270465, 135267393, 135270465, 135267393, 135270465, 135267393,
  135270465, 67245058, 68293633, 137645588481, 137645588481, 137645588481, 137645588481, 138721428481,
  212486124994625, 68295681, 138719330305, 1094, 1094, 134209, 134209, 138717233153, 138717233153, 138718281729,
  138718281729, 134222914, 134222914, 135271489, 135271489, 206163804225, 206163804225, 206163804225, 206163804225,
  282580058439809, 282580058439809, 137645588481, 137645588481, 137645588481, 137645588481, 138721428481,
  138721428481, 68295682, 68295682, 138719264833, 138719264833, 135273538, 207237480577, 5185, 134222913, 134222913,
  206163804225, 206163804225, 206163804225, 206163804225, 206163804225, 67245057, 67245057, 67245057, 65538,
  134284289, 134289409, 134218817, 206226587777, 206231961601, 134218817, 206226718721, 206231961601, 134218817,
  206226718721, 206231961601, 69, 2, 66, 134209, 133185, 137282, 132162, 201458753, 201458753, 133185, 201457729,
  132162, 201458753, 131137, 201457729, 201457729, 131137, 203554881, 134209, 204537985, 201457729, 203554881,
  277159804993, 65537, 134285314, 134285313, 134285314, 134285313, 134283266, 134283266, 206292714497, 206292714497,
  206292714497, 206292713473, 134283266, 134283265, 206292714497, 206292713473, 206292714497, 206292713473, 134283265,
  134285313, 206294745153, 134285313, 206292713473, 206292714497, 281683282755649, 206294810625, 206294745153, 65537,
  134285314, 134285313, 134285314, 134285313, 134283266, 134283266, 206292714497, 206292714497, 206292714497,
  206292713473, 134283266, 134283265, 206292714497, 206292713473, 206292714497, 206292713473, 134283265, 134285313,
  206294745153, 134285313, 206292713473, 206292714497, 281683282755649, 206294810625, 206294745153, 67245057,
  68293633, 68293633, 67240961, 68289537, 68289537, 134218817, 135267393, 135267393, 66, 66561, 67240961, 67240961,
  137641394177, 137641394177, 137641394177, 137643491329, 137643491329, 66, 66561, 67240961, 67240961, 137641394177,
  137641394177, 137641394177, 137643491329, 137643491329, 134218817, 134218817, 134218817, 67240961, 67240961,
  67240961, 65538, 134284289, 134283265, 134283266, 134289409, 134283265, 206292713473, 206294745153, 135266369,
  133185, 133185, 133185, 135270465, 135270465, 207302426753, 207302426753, 65537, 135266369, 135266369, 135266369,
  207232303169, 68289537, 68289537, 68289537, 68289537, 68292609, 68292609, 68292609, 68292609, 67240961, 68289537,
  137641394177, 137641394177, 137641394177, 137641394177, 137643491329, 211382318465025, 68289537, 138717233153,
  65541, 65541, 207236497473, 207236497473, 67245058, 67245058, 68293633, 68293633, 137645588481, 137645588481,
  137645588481, 137645588481, 212486124994625, 212486124994625, 206159609921, 206159609921, 206159609921,
  206159609921, 207235449921, 207235449921, 135271490, 135271490, 207239577729, 207239577729, 67240961, 137643491329,
  70657, 67245057, 67245057, 137645588481, 137645588481, 137645588481, 137645588481, 137645588481, 67245057, 67245057,
  67245057, 65538, 134284289, 134289409, 134218817, 206226587777, 206231961601, 134218817, 206226718721, 206231961601,
  134218817, 206226718721, 206231961601, 65541, 65537, 1, 134283265, 206292713473, 65537, 65537, 134283265, 134283265,
  134287361, 134283265, 206292713473, 65537, 134283265, 134283265, 65537, 65537, 134283265, 134283265, 134287361,
  134283265, 206292713473, 65537, 134283265, 134283265, 65537, 134283265, 134283265, 134283265, 206292713473, 65537,
  65537, 134283265, 134283265, 134283265, 134283265, 134283265, 134283265, 134283265, 134283265, 65537, 134283265,
  134283265, 134283265, 134283265, 206292713473, 206292713473, 134283265, 206292713473, 206292713473, 206292713473,
  206292713473, 134283265, 134283265, 65537, 134283265, 134283265, 134283265, 206292713473, 65537, 65537, 134283265,
  134283265, 134283265, 134283265, 134283265, 134283265, 134283265, 134283265, 65537, 134283265, 134283265, 134283265,
  134283265, 206292713473, 206292713473, 134283265, 206292713473, 206292713473, 206292713473, 206292713473, 134283265,
  134283265, 134283265, 134283265, 65537, 134283265, 134283265, 134283265, 134283265, 134283265, 134283265, 65537,
  134283265, 134283265, 134283265, 134283265, 134283265, 134283265, 65537, 134283265, 134283265, 134283265, 134283265,
  134283265, 65537, 134283265, 134283265, 134283265, 134283265, 134283265, 134287362, 206296842305, 65541, 65537, 1,
  134283265, 206292713473, 65537, 65537, 134283265, 134283265, 134287361, 134283265, 206292713473, 65537, 134283265,
  134283265, 65537, 65537, 134283265, 134283265, 134287361, 134283265, 206292713473, 65537, 134283265, 134283265,
  65537, 134283265, 134283265, 134283265, 206292713473, 65537, 65537, 134283265, 134283265, 134283265, 134283265,
  134283265, 134283265, 134283265, 134283265, 65537, 134283265, 134283265, 134283265, 134283265, 206292713473,
  206292713473, 134283265, 206292713473, 206292713473, 206292713473, 206292713473, 134283265, 134283265, 65537,
  134283265, 134283265, 134283265, 206292713473, 65537, 65537, 134283265, 134283265, 134283265, 134283265, 134283265,
  134283265, 134283265, 134283265, 65537, 134283265, 134283265, 134283265, 134283265, 206292713473, 206292713473,
  134283265, 206292713473, 206292713473, 206292713473, 206292713473, 134283265, 134283265, 134283265, 134283265,
  65537, 134283265, 134283265, 134283265, 134283265, 134283265, 134283265, 65537, 134283265, 134283265, 134283265,
  134283265, 134283265, 134283265, 65537, 134283265, 134283265, 134283265, 134283265, 134283265, 65537, 134283265,
  134283265, 134283265, 134283265, 134283265, 134287362, 206296842305, 66565, 66565, 5, 135335938, 207370584129,
  65537, 65541, 135331841, 134283265, 135335937, 134283265, 206292713473, 65537, 134283265, 134283265, 65537, 65541,
  135331841, 134283265, 135335937, 134283265, 206292713473, 65537, 134283265, 134283265, 65537, 134283265, 134283265,
  134287361, 206292713473, 65537, 65537, 134283265, 134283265, 134283265, 134283265, 134283265, 134283265, 134283265,
  134283265, 65537, 134283265, 134283265, 134283265, 134283265, 206292713473, 206292713473, 135331841, 207366455297,
  207366455297, 206292713473, 206292713473, 134283265, 134283265, 65537, 134283265, 134283265, 134287361,
  206292713473, 65537, 65537, 134283265, 134283265, 134283265, 134283265, 134283265, 134283265, 134283265, 134283265,
  65537, 134283265, 134283265, 134283265, 134283265, 206292713473, 206292713473, 135331841, 207366455297,
  207366455297, 206292713473, 206292713473, 134283265, 134283265, 134283265, 134283265, 66561, 134283265, 134283265,
  134283265, 134287361, 134287361, 134287361, 66561, 134283265, 134283265, 134283265, 134287361, 134287361, 134287361,
  65537, 134283265, 134283265, 135331841, 135331841, 135331841, 65537, 134283265, 134283265, 135331841, 135331841,
  135331841, 135335938, 207370584129]

end Ebcc.Hints
