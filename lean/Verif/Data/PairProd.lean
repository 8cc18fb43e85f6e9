import Verif.Data.Tok

set_option autoImplicit false

/-! Generated by `tools/tables.py` from `Tables/pairprod.table` in the repository. -/

namespace QED
namespace Shipped

/-- Pairs of `pairprod.table` from number 0. -/
def rate0 : List (Tok × Tok) := [
  (⟨true, 1, 5, none, none, 'e'⟩, ⟨true, 2, 50, none, none, 'e'⟩),
  (g 2 499, ⟨true, 2, 50, none, none, 'e'⟩), (g 2 498, ⟨true, 2, 50, none, none, 'e'⟩),
  (g 2 497, ⟨true, 2, 50, none, none, 'e'⟩), (g 2 496, ⟨true, 2, 50, none, none, 'e'⟩),
  (g 2 495, ⟨true, 2, 50, none, none, 'e'⟩), (g 2 494, ⟨true, 2, 50, none, none, 'e'⟩),
  (g 2 493, ⟨true, 2, 50, none, none, 'e'⟩), (g 2 492, ⟨true, 2, 50, none, none, 'e'⟩),
  (g 2 491, ⟨true, 2, 50, none, none, 'e'⟩), (g 1 49, ⟨true, 2, 50, none, none, 'e'⟩),
  (g 2 489, ⟨true, 2, 50, none, none, 'e'⟩), (g 2 488, ⟨true, 2, 50, none, none, 'e'⟩),
  (g 2 487, ⟨true, 2, 50, none, none, 'e'⟩), (g 2 486, ⟨true, 2, 50, none, none, 'e'⟩),
  (g 2 485, ⟨true, 2, 50, none, none, 'e'⟩), (g 2 484, ⟨true, 2, 50, none, none, 'e'⟩),
  (g 2 483, ⟨true, 2, 50, none, none, 'e'⟩), (g 2 482, ⟨true, 2, 50, none, none, 'e'⟩),
  (g 2 481, ⟨true, 2, 50, none, none, 'e'⟩), (g 1 48, ⟨true, 2, 50, none, none, 'e'⟩),
  (g 2 479, ⟨true, 2, 50, none, none, 'e'⟩), (g 2 478, ⟨true, 2, 50, none, none, 'e'⟩),
  (g 2 477, ⟨true, 2, 50, none, none, 'e'⟩), (g 2 476, ⟨true, 2, 50, none, none, 'e'⟩),
  (g 2 475, ⟨true, 2, 50, none, none, 'e'⟩), (g 2 474, ⟨true, 2, 50, none, none, 'e'⟩),
  (g 2 473, ⟨true, 2, 50, none, none, 'e'⟩), (g 2 472, ⟨true, 2, 50, none, none, 'e'⟩),
  (g 2 471, ⟨true, 2, 50, none, none, 'e'⟩), (g 1 47, ⟨true, 2, 50, none, none, 'e'⟩),
  (g 2 469, ⟨true, 2, 50, none, none, 'e'⟩), (g 2 468, ⟨true, 2, 50, none, none, 'e'⟩),
  (g 2 467, ⟨true, 2, 50, none, none, 'e'⟩), (g 2 466, ⟨true, 2, 50, none, none, 'e'⟩),
  (g 2 465, ⟨true, 2, 50, none, none, 'e'⟩), (g 2 464, ⟨true, 2, 50, none, none, 'e'⟩),
  (g 2 463, ⟨true, 2, 50, none, none, 'e'⟩), (g 2 462, ⟨true, 2, 50, none, none, 'e'⟩),
  (g 2 461, ⟨true, 2, 50, none, none, 'e'⟩), (g 1 46, ⟨true, 2, 50, none, none, 'e'⟩),
  (g 2 459, ⟨true, 2, 50, none, none, 'e'⟩), (g 2 458, ⟨true, 2, 50, none, none, 'e'⟩),
  (g 2 457, ⟨true, 2, 50, none, none, 'e'⟩), (g 2 456, ⟨true, 2, 50, none, none, 'e'⟩),
  (g 2 455, ⟨true, 2, 50, none, none, 'e'⟩), (g 2 454, ⟨true, 2, 50, none, none, 'e'⟩),
  (g 2 453, ⟨true, 2, 50, none, none, 'e'⟩), (g 2 452, ⟨true, 2, 50, none, none, 'e'⟩),
  (g 2 451, ⟨true, 2, 50, none, none, 'e'⟩), (g 1 45, ⟨true, 2, 50, none, none, 'e'⟩),
  (g 2 449, ⟨true, 2, 50, none, none, 'e'⟩), (g 2 448, ⟨true, 2, 50, none, none, 'e'⟩),
  (g 2 447, ⟨true, 2, 50, none, none, 'e'⟩), (g 2 446, ⟨true, 2, 50, none, none, 'e'⟩),
  (g 2 445, ⟨true, 2, 50, none, none, 'e'⟩), (g 2 444, ⟨true, 2, 50, none, none, 'e'⟩),
  (g 2 443, ⟨true, 2, 50, none, none, 'e'⟩), (g 2 442, ⟨true, 2, 50, none, none, 'e'⟩),
  (g 2 441, ⟨true, 2, 50, none, none, 'e'⟩), (g 1 44, ⟨true, 2, 50, none, none, 'e'⟩),
  (g 2 439, ⟨true, 2, 50, none, none, 'e'⟩), (g 2 438, ⟨true, 2, 50, none, none, 'e'⟩),
  (g 2 437, ⟨true, 2, 50, none, none, 'e'⟩), (g 2 436, ⟨true, 2, 50, none, none, 'e'⟩),
  (g 2 435, ⟨true, 2, 50, none, none, 'e'⟩), (g 2 434, ⟨true, 2, 50, none, none, 'e'⟩),
  (g 2 433, ⟨true, 2, 50, none, none, 'e'⟩), (g 2 432, ⟨true, 2, 50, none, none, 'e'⟩),
  (g 2 431, ⟨true, 2, 50, none, none, 'e'⟩), (g 1 43, ⟨true, 2, 50, none, none, 'e'⟩),
  (g 2 429, ⟨true, 2, 50, none, none, 'e'⟩), (g 2 428, ⟨true, 2, 50, none, none, 'e'⟩),
  (g 2 427, ⟨true, 2, 50, none, none, 'e'⟩), (g 2 426, ⟨true, 2, 50, none, none, 'e'⟩),
  (g 2 425, ⟨true, 2, 50, none, none, 'e'⟩), (g 2 424, ⟨true, 2, 50, none, none, 'e'⟩),
  (g 2 423, ⟨true, 2, 50, none, none, 'e'⟩), (g 2 422, ⟨true, 2, 50, none, none, 'e'⟩),
  (g 2 421, ⟨true, 2, 50, none, none, 'e'⟩), (g 1 42, ⟨true, 2, 50, none, none, 'e'⟩),
  (g 2 419, ⟨true, 2, 50, none, none, 'e'⟩), (g 2 418, ⟨true, 2, 50, none, none, 'e'⟩),
  (g 2 417, ⟨true, 2, 50, none, none, 'e'⟩), (g 2 416, ⟨true, 2, 50, none, none, 'e'⟩),
  (g 2 415, ⟨true, 2, 50, none, none, 'e'⟩), (g 2 414, ⟨true, 2, 50, none, none, 'e'⟩),
  (g 2 413, ⟨true, 2, 50, none, none, 'e'⟩), (g 2 412, ⟨true, 2, 50, none, none, 'e'⟩),
  (g 2 411, ⟨true, 2, 50, none, none, 'e'⟩), (g 1 41, ⟨true, 2, 50, none, none, 'e'⟩),
  (g 2 409, ⟨true, 2, 50, none, none, 'e'⟩), (g 2 408, ⟨true, 2, 50, none, none, 'e'⟩),
  (g 2 407, ⟨true, 2, 50, none, none, 'e'⟩), (g 2 406, ⟨true, 2, 50, none, none, 'e'⟩),
  (g 2 405, ⟨true, 2, 50, none, none, 'e'⟩), (g 2 404, ⟨true, 2, 50, none, none, 'e'⟩),
  (g 2 403, ⟨true, 2, 50, none, none, 'e'⟩), (g 2 402, ⟨true, 2, 50, none, none, 'e'⟩),
  (g 2 401, ⟨true, 2, 50, none, none, 'e'⟩)]

/-- Pairs of `pairprod.table` from number 100. -/
def rate1 : List (Tok × Tok) := [
  (⟨true, 1, 4, none, none, 'e'⟩, ⟨true, 2, 50, none, none, 'e'⟩),
  (g 2 399, ⟨true, 2, 50, none, none, 'e'⟩), (g 2 398, ⟨true, 2, 50, none, none, 'e'⟩),
  (g 2 397, ⟨true, 2, 50, none, none, 'e'⟩), (g 2 396, ⟨true, 2, 50, none, none, 'e'⟩),
  (g 2 395, ⟨true, 2, 50, none, none, 'e'⟩), (g 2 394, ⟨true, 2, 50, none, none, 'e'⟩),
  (g 2 393, ⟨true, 2, 50, none, none, 'e'⟩), (g 2 392, ⟨true, 2, 50, none, none, 'e'⟩),
  (g 2 391, ⟨true, 2, 50, none, none, 'e'⟩), (g 1 39, ⟨true, 2, 50, none, none, 'e'⟩),
  (g 2 389, ⟨true, 2, 50, none, none, 'e'⟩), (g 2 388, ⟨true, 2, 50, none, none, 'e'⟩),
  (g 2 387, ⟨true, 2, 50, none, none, 'e'⟩), (g 2 386, ⟨true, 2, 50, none, none, 'e'⟩),
  (g 2 385, ⟨true, 2, 50, none, none, 'e'⟩), (g 2 384, ⟨true, 2, 50, none, none, 'e'⟩),
  (g 2 383, ⟨true, 2, 50, none, none, 'e'⟩), (g 2 382, ⟨true, 2, 50, none, none, 'e'⟩),
  (g 2 381, ⟨true, 2, 50, none, none, 'e'⟩), (g 1 38, ⟨true, 2, 50, none, none, 'e'⟩),
  (g 2 379, ⟨true, 2, 50, none, none, 'e'⟩), (g 2 378, ⟨true, 2, 50, none, none, 'e'⟩),
  (g 2 377, ⟨true, 2, 50, none, none, 'e'⟩), (g 2 376, ⟨true, 2, 50, none, none, 'e'⟩),
  (g 2 375, ⟨true, 2, 50, none, none, 'e'⟩), (g 2 374, ⟨true, 2, 50, none, none, 'e'⟩),
  (g 2 373, ⟨true, 2, 50, none, none, 'e'⟩), (g 2 372, ⟨true, 2, 50, none, none, 'e'⟩),
  (g 2 371, ⟨true, 2, 50, none, none, 'e'⟩), (g 1 37, ⟨true, 2, 50, none, none, 'e'⟩),
  (g 2 369, ⟨true, 2, 50, none, none, 'e'⟩), (g 2 368, ⟨true, 2, 50, none, none, 'e'⟩),
  (g 2 367, ⟨true, 2, 50, none, none, 'e'⟩), (g 2 366, ⟨true, 2, 50, none, none, 'e'⟩),
  (g 2 365, ⟨true, 2, 50, none, none, 'e'⟩), (g 2 364, ⟨true, 2, 50, none, none, 'e'⟩),
  (g 2 363, ⟨true, 2, 50, none, none, 'e'⟩), (g 2 362, ⟨true, 2, 50, none, none, 'e'⟩),
  (g 2 361, ⟨true, 2, 50, none, none, 'e'⟩), (g 1 36, ⟨true, 2, 50, none, none, 'e'⟩),
  (g 2 359, ⟨true, 2, 50, none, none, 'e'⟩), (g 2 358, ⟨true, 2, 50, none, none, 'e'⟩),
  (g 2 357, ⟨true, 2, 50, none, none, 'e'⟩), (g 2 356, ⟨true, 2, 50, none, none, 'e'⟩),
  (g 2 355, ⟨true, 2, 50, none, none, 'e'⟩), (g 2 354, ⟨true, 2, 50, none, none, 'e'⟩),
  (g 2 353, ⟨true, 2, 50, none, none, 'e'⟩), (g 2 352, ⟨true, 2, 50, none, none, 'e'⟩),
  (g 2 351, ⟨true, 2, 50, none, none, 'e'⟩), (g 1 35, ⟨true, 2, 50, none, none, 'e'⟩),
  (g 2 349, ⟨true, 2, 50, none, none, 'e'⟩), (g 2 348, ⟨true, 2, 50, none, none, 'e'⟩),
  (g 2 347, ⟨true, 2, 50, none, none, 'e'⟩), (g 2 346, ⟨true, 2, 50, none, none, 'e'⟩),
  (g 2 345, ⟨true, 2, 50, none, none, 'e'⟩), (g 2 344, ⟨true, 2, 50, none, none, 'e'⟩),
  (g 2 343, ⟨true, 2, 50, none, none, 'e'⟩), (g 2 342, ⟨true, 2, 50, none, none, 'e'⟩),
  (g 2 341, ⟨true, 2, 50, none, none, 'e'⟩), (g 1 34, ⟨true, 2, 50, none, none, 'e'⟩),
  (g 2 339, ⟨true, 2, 50, none, none, 'e'⟩), (g 2 338, ⟨true, 2, 50, none, none, 'e'⟩),
  (g 2 337, ⟨true, 2, 50, none, none, 'e'⟩), (g 2 336, ⟨true, 2, 50, none, none, 'e'⟩),
  (g 2 335, ⟨true, 2, 50, none, none, 'e'⟩), (g 2 334, ⟨true, 2, 50, none, none, 'e'⟩),
  (g 2 333, ⟨true, 2, 50, none, none, 'e'⟩), (g 2 332, ⟨true, 2, 50, none, none, 'e'⟩),
  (g 2 331, ⟨true, 2, 50, none, none, 'e'⟩), (g 1 33, ⟨true, 2, 50, none, none, 'e'⟩),
  (g 2 329, ⟨true, 2, 50, none, none, 'e'⟩), (g 2 328, ⟨true, 2, 50, none, none, 'e'⟩),
  (g 2 327, ⟨true, 2, 50, none, none, 'e'⟩), (g 2 326, ⟨true, 2, 50, none, none, 'e'⟩),
  (g 2 325, ⟨true, 2, 50, none, none, 'e'⟩), (g 2 324, ⟨true, 2, 50, none, none, 'e'⟩),
  (g 2 323, ⟨true, 2, 50, none, none, 'e'⟩), (g 2 322, ⟨true, 2, 50, none, none, 'e'⟩),
  (g 2 321, ⟨true, 2, 50, none, none, 'e'⟩), (g 1 32, ⟨true, 2, 50, none, none, 'e'⟩),
  (g 2 319, ⟨true, 2, 50, none, none, 'e'⟩), (g 2 318, ⟨true, 2, 50, none, none, 'e'⟩),
  (g 2 317, ⟨true, 2, 50, none, none, 'e'⟩), (g 2 316, ⟨true, 2, 50, none, none, 'e'⟩),
  (g 2 315, ⟨true, 2, 50, none, none, 'e'⟩), (g 2 314, ⟨true, 2, 50, none, none, 'e'⟩),
  (g 2 313, ⟨true, 2, 50, none, none, 'e'⟩), (g 2 312, ⟨true, 2, 50, none, none, 'e'⟩),
  (g 2 311, ⟨true, 2, 50, none, none, 'e'⟩), (g 1 31, ⟨true, 2, 50, none, none, 'e'⟩),
  (g 2 309, ⟨true, 2, 50, none, none, 'e'⟩), (g 2 308, ⟨true, 2, 50, none, none, 'e'⟩),
  (g 2 307, ⟨true, 2, 50, none, none, 'e'⟩), (g 2 306, ⟨true, 2, 50, none, none, 'e'⟩),
  (g 2 305, ⟨true, 2, 50, none, none, 'e'⟩), (g 2 304, ⟨true, 2, 50, none, none, 'e'⟩),
  (g 2 303, ⟨true, 2, 50, none, none, 'e'⟩), (g 2 302, ⟨true, 2, 50, none, none, 'e'⟩),
  (g 2 301, ⟨true, 2, 50, none, none, 'e'⟩)]

/-- Pairs of `pairprod.table` from number 200. -/
def rate2 : List (Tok × Tok) := [
  (⟨true, 1, 3, none, none, 'e'⟩, ⟨true, 3, 579396551372654, some 12, none, 'e'⟩),
  (g 2 299, ⟨true, 3, 566215552263755, some 12, none, 'e'⟩),
  (g 2 298, ⟨true, 3, 553334589325153, some 12, none, 'e'⟩),
  (g 2 297, ⟨true, 3, 540746832899799, some 12, none, 'e'⟩),
  (g 2 296, ⟨true, 3, 528445608792618, some 12, none, 'e'⟩),
  (g 2 295, ⟨true, 3, 516424394731761, some 12, none, 'e'⟩),
  (g 2 294, ⟨true, 3, 504676816910415, some 12, none, 'e'⟩),
  (g 2 293, ⟨true, 3, 49319664660732, some 11, none, 'e'⟩),
  (g 2 292, ⟨true, 3, 481977796884224, some 12, none, 'e'⟩),
  (g 2 291, ⟨true, 3, 471014319358506, some 12, none, 'e'⟩),
  (g 1 29, ⟨true, 3, 46030040104926, some 11, none, 'e'⟩),
  (g 2 289, ⟨true, 3, 449830361295186, some 12, none, 'e'⟩),
  (g 2 288, ⟨true, 3, 439598648742618, some 12, none, 'e'⟩),
  (g 2 287, ⟨true, 3, 429599838402127, some 12, none, 'e'⟩),
  (g 2 286, ⟨true, 3, 419828628772122, some 12, none, 'e'⟩),
  (g 2 285, ⟨true, 3, 410279839027919, some 12, none, 'e'⟩),
  (g 2 284, ⟨true, 3, 400948406274803, some 12, none, 'e'⟩),
  (g 2 283, ⟨true, 3, 391829382863611, some 12, none, 'e'⟩),
  (g 2 282, ⟨true, 3, 382917933767428, some 12, none, 'e'⟩),
  (g 2 281, ⟨true, 3, 374209334017984, some 12, none, 'e'⟩),
  (g 1 28, ⟨true, 3, 365698966200421, some 12, none, 'e'⟩),
  (g 2 279, ⟨true, 3, 357382318005074, some 12, none, 'e'⟩),
  (g 2 278, ⟨true, 3, 349254979834986, some 12, none, 'e'⟩),
  (g 2 277, ⟨true, 3, 341312642467882, some 12, none, 'e'⟩),
  (g 2 276, ⟨true, 3, 333551094771359, some 12, none, 'e'⟩),
  (g 2 275, ⟨true, 3, 325966221470093, some 12, none, 'e'⟩),
  (g 2 274, ⟨true, 3, 318554000963861, some 12, none, 'e'⟩),
  (g 2 273, ⟨true, 3, 31131050319524, some 11, none, 'e'⟩),
  (g 2 272, ⟨true, 3, 304231887565833, some 12, none, 'e'⟩),
  (g 2 271, ⟨true, 3, 297314400899938, some 12, none, 'e'⟩),
  (g 1 27, ⟨true, 3, 290554375454559, some 12, none, 'e'⟩),
  (g 2 269, ⟨true, 3, 283948226974726, some 12, none, 'e'⟩),
  (g 2 268, ⟨true, 3, 277492452793073, some 12, none, 'e'⟩),
  (g 2 267, ⟨true, 3, 271183629972676, some 12, none, 'e'⟩),
  (g 2 266, ⟨true, 3, 265018413492168, some 12, none, 'e'⟩),
  (g 2 265, ⟨true, 3, 258993534472166, some 12, none, 'e'⟩),
  (g 2 264, ⟨true, 3, 253105798442065, some 12, none, 'e'⟩),
  (g 2 263, ⟨true, 3, 247352083646287, some 12, none, 'e'⟩),
  (g 2 262, ⟨true, 3, 241729339389088, some 12, none, 'e'⟩),
  (g 2 261, ⟨true, 3, 236234584417038, some 12, none, 'e'⟩),
  (g 1 26, ⟨true, 3, 230864905338319, some 12, none, 'e'⟩),
  (g 2 259, ⟨true, 3, 225617455078007, some 12, none, 'e'⟩),
  (g 2 258, ⟨true, 3, 220489451368516, some 12, none, 'e'⟩),
  (g 2 257, ⟨true, 3, 215478175274402, some 12, none, 'e'⟩),
  (g 2 256, ⟨true, 3, 210580969750747, some 12, none, 'e'⟩),
  (g 2 255, ⟨true, 3, 205795238234362, some 12, none, 'e'⟩),
  (g 2 254, ⟨true, 3, 201118443267048, some 12, none, 'e'⟩),
  (g 2 253, ⟨true, 3, 196548105150211, some 12, none, 'e'⟩),
  (g 2 252, ⟨true, 3, 192081800630085, some 12, none, 'e'⟩),
  (g 2 251, ⟨true, 3, 187717161612894, some 12, none, 'e'⟩),
  (g 1 25, ⟨true, 3, 183451873909259, some 12, none, 'e'⟩),
  (g 2 249, ⟨true, 3, 179283676007182, some 12, none, 'e'⟩),
  (g 2 248, ⟨true, 3, 175210357872962, some 12, none, 'e'⟩),
  (g 2 247, ⟨true, 3, 171229759779408, some 12, none, 'e'⟩),
  (g 2 246, ⟨true, 3, 167339771160722, some 12, none, 'e'⟩),
  (g 2 245, ⟨true, 3, 163538329493447, some 12, none, 'e'⟩),
  (g 2 244, ⟨true, 3, 159823419202894, some 12, none, 'e'⟩),
  (g 2 243, ⟨true, 3, 156193070594453, some 12, none, 'e'⟩),
  (g 2 242, ⟨true, 3, 15264535880924, some 11, none, 'e'⟩),
  (g 2 241, ⟨true, 3, 149178402803506, some 12, none, 'e'⟩),
  (g 1 24, ⟨true, 3, 145790364351287, some 12, none, 'e'⟩),
  (g 2 239, ⟨true, 3, 142479447069748, some 12, none, 'e'⟩),
  (g 2 238, ⟨true, 3, 139243895466723, some 12, none, 'e'⟩),
  (g 2 237, ⟨true, 3, 136081994009924, some 12, none, 'e'⟩),
  (g 2 236, ⟨true, 3, 132992066217345, some 12, none, 'e'⟩),
  (g 2 235, ⟨true, 3, 129972473768371, some 12, none, 'e'⟩),
  (g 2 234, ⟨true, 3, 127021615635117, some 12, none, 'e'⟩),
  (g 2 233, ⟨true, 3, 124137927233541, some 12, none, 'e'⟩),
  (g 2 232, ⟨true, 3, 121319879593882, some 12, none, 'e'⟩),
  (g 2 231, ⟨true, 3, 11856597854998, some 11, none, 'e'⟩),
  (g 1 23, ⟨true, 3, 115874763947051, some 12, none, 'e'⟩),
  (g 2 229, ⟨true, 3, 113244808867488, some 12, none, 'e'⟩),
  (g 2 228, ⟨true, 3, 110674718874298, some 12, none, 'e'⟩),
  (g 2 227, ⟨true, 3, 108163131271746, some 12, none, 'e'⟩),
  (g 2 226, ⟨true, 3, 105708714382842, some 12, none, 'e'⟩),
  (g 2 225, ⟨true, 3, 103310166843262, some 12, none, 'e'⟩),
  (g 2 224, ⟨true, 3, 100966216911352, some 12, none, 'e'⟩),
  (g 2 223, ⟨true, 2, 98675621793833, some 12, none, 'e'⟩),
  (g 2 222, ⟨true, 2, 964371669868537, some 13, none, 'e'⟩),
  (g 2 221, ⟨true, 2, 942496656320463, some 13, none, 'e'⟩),
  (g 1 22, ⟨true, 2, 92111957887237, some 12, none, 'e'⟩),
  (g 2 219, ⟨true, 2, 90022910311484, some 12, none, 'e'⟩),
  (g 2 218, ⟨true, 2, 879814152641107, some 13, none, 'e'⟩),
  (g 2 217, ⟨true, 2, 859863903174205, some 13, none, 'e'⟩),
  (g 2 216, ⟨true, 2, 840367776827795, some 13, none, 'e'⟩),
  (g 2 215, ⟨true, 2, 821315436497625, some 13, none, 'e'⟩),
  (g 2 214, ⟨true, 2, 802696780380666, some 13, none, 'e'⟩),
  (g 2 213, ⟨true, 2, 784501936618996, some 13, none, 'e'⟩),
  (g 2 212, ⟨true, 2, 766721258065618, some 13, none, 'e'⟩),
  (g 2 211, ⟨true, 2, 749345317169405, some 13, none, 'e'⟩),
  (g 1 21, ⟨true, 2, 732364900976499, some 13, none, 'e'⟩),
  (g 2 209, ⟨true, 2, 715771006245469, some 13, none, 'e'⟩),
  (g 2 208, ⟨true, 2, 699554834673685, some 13, none, 'e'⟩),
  (g 2 207, ⟨true, 2, 683707788232331, some 13, none, 'e'⟩),
  (g 2 206, ⟨true, 2, 668221464607626, some 13, none, 'e'⟩),
  (g 2 205, ⟨true, 2, 653087652745795, some 13, none, 'e'⟩),
  (g 2 204, ⟨true, 2, 638298328499473, some 13, none, 'e'⟩),
  (g 2 203, ⟨true, 2, 623845650373182, some 13, none, 'e'⟩),
  (g 2 202, ⟨true, 2, 609721955365677, some 13, none, 'e'⟩),
  (g 2 201, ⟨true, 2, 595919754906915, some 13, none, 'e'⟩)]

/-- Pairs of `pairprod.table` from number 300. -/
def rate3 : List (Tok × Tok) := [
  (⟨true, 1, 2, none, none, 'e'⟩, ⟨true, 2, 583304978978294, some 13, none, 'e'⟩),
  (g 2 199, ⟨true, 2, 570124187493953, some 13, none, 'e'⟩),
  (g 2 198, ⟨true, 2, 557243436943311, some 13, none, 'e'⟩),
  (g 2 197, ⟨true, 2, 54465589777692, some 12, none, 'e'⟩),
  (g 2 196, ⟨true, 2, 532354895909662, some 13, none, 'e'⟩),
  (g 2 195, ⟨true, 2, 520333909182048, some 13, none, 'e'⟩),
  (g 2 194, ⟨true, 2, 508586563902073, some 13, none, 'e'⟩),
  (g 2 193, ⟨true, 2, 49710663146579, some 12, none, 'e'⟩),
  (g 2 192, ⟨true, 2, 485888025054806, some 13, none, 'e'⟩),
  (g 2 191, ⟨true, 2, 474924796408965, some 13, none, 'e'⟩),
  (g 1 19, ⟨true, 2, 464211132672482, some 13, none, 'e'⟩),
  (g 2 189, ⟨true, 2, 453741353311879, some 13, none, 'e'⟩),
  (g 2 188, ⟨true, 2, 443509907104081, some 13, none, 'e'⟩),
  (g 2 187, ⟨true, 2, 433511369193063, some 13, none, 'e'⟩),
  (g 2 186, ⟨true, 2, 423740438213509, some 13, none, 'e'⟩),
  (g 2 185, ⟨true, 2, 414191933479943, some 13, none, 'e'⟩),
  (g 2 184, ⟨true, 2, 404860792239839, some 13, none, 'e'⟩),
  (g 2 183, ⟨true, 2, 395742066989272, some 13, none, 'e'⟩),
  (g 2 182, ⟨true, 2, 386830922849664, some 13, none, 'e'⟩),
  (g 2 181, ⟨true, 2, 37812263500425, some 12, none, 'e'⟩),
  (g 1 18, ⟨true, 2, 369612586192898, some 13, none, 'e'⟩),
  (g 2 179, ⟨true, 2, 361296264263958, some 13, none, 'e'⟩),
  (g 2 178, ⟨true, 2, 353169259781835, some 13, none, 'e'⟩),
  (g 2 177, ⟨true, 2, 34522726368903, some 12, none, 'e'⟩),
  (g 2 176, ⟨true, 2, 337466065021394, some 13, none, 'e'⟩),
  (g 2 175, ⟨true, 2, 329881548675398, some 13, none, 'e'⟩),
  (g 2 174, ⟨true, 2, 322469693226223, some 13, none, 'e'⟩),
  (g 2 173, ⟨true, 2, 315226568795526, some 13, none, 'e'⟩),
  (g 2 172, ⟨true, 2, 308148334967735, some 13, none, 'e'⟩),
  (g 2 171, ⟨true, 2, 301231238753783, some 13, none, 'e'⟩),
  (g 1 17, ⟨true, 2, 294471612601195, some 13, none, 'e'⟩),
  (g 2 169, ⟨true, 2, 287865872449474, some 13, none, 'e'⟩),
  (g 2 168, ⟨true, 2, 281410515829748, some 13, none, 'e'⟩),
  (g 2 167, ⟨true, 2, 275102120007686, some 13, none, 'e'⟩),
  (g 2 166, ⟨true, 2, 268937340168686, some 13, none, 'e'⟩),
  (g 2 165, ⟨true, 2, 262912907644369, some 13, none, 'e'⟩),
  (g 2 164, ⟨true, 2, 257025628179453, some 13, none, 'e'⟩),
  (g 2 163, ⟨true, 2, 251272380238078, some 13, none, 'e'⟩),
  (g 2 162, ⟨true, 2, 245650113348686, some 13, none, 'e'⟩),
  (g 2 161, ⟨true, 2, 240155846486579, some 13, none, 'e'⟩),
  (g 1 16, ⟨true, 2, 234786666493295, some 13, none, 'e'⟩),
  (g 2 159, ⟨true, 2, 229539726531969, some 13, none, 'e'⟩),
  (g 2 158, ⟨true, 2, 224412244577854, some 13, none, 'e'⟩),
  (g 2 157, ⟨true, 2, 219401501943204, some 13, none, 'e'⟩),
  (g 2 156, ⟨true, 2, 214504841835744, some 13, none, 'e'⟩),
  (g 2 155, ⟨true, 2, 209719667949945, some 13, none, 'e'⟩),
  (g 2 154, ⟨true, 2, 205043443090374, some 13, none, 'e'⟩),
  (g 2 153, ⟨true, 2, 200473687826384, some 13, none, 'e'⟩),
  (g 2 152, ⟨true, 2, 196007979177428, some 13, none, 'e'⟩),
  (g 2 151, ⟨true, 2, 191643949328295, some 13, none, 'e'⟩),
  (g 1 15, ⟨true, 2, 187379284373607, some 13, none, 'e'⟩),
  (g 2 149, ⟨true, 2, 18321172309088, some 12, none, 'e'⟩),
  (g 2 148, ⟨true, 2, 179139055741533, some 13, none, 'e'⟩),
  (g 2 147, ⟨true, 2, 175159122899177, some 13, none, 'e'⟩),
  (g 2 146, ⟨true, 2, 171269814304584, some 13, none, 'e'⟩),
  (g 2 145, ⟨true, 2, 167469067746726, some 13, none, 'e'⟩),
  (g 2 144, ⟨true, 2, 16375486796928, some 12, none, 'e'⟩),
  (g 2 143, ⟨true, 2, 160125245602026, some 13, none, 'e'⟩),
  (g 2 142, ⟨true, 2, 15657827611658, some 12, none, 'e'⟩),
  (g 2 141, ⟨true, 2, 153112078805889, some 13, none, 'e'⟩),
  (g 1 14, ⟨true, 2, 149724815786962, some 13, none, 'e'⟩),
  (g 2 139, ⟨true, 2, 146414691026305, some 13, none, 'e'⟩),
  (g 2 138, ⟨true, 2, 14317994938754, some 12, none, 'e'⟩),
  (g 2 137, ⟨true, 2, 140018875700699, some 13, none, 'e'⟩),
  (g 2 136, ⟨true, 2, 13692979385272, some 12, none, 'e'⟩),
  (g 2 135, ⟨true, 2, 133911065898629, some 13, none, 'e'⟩),
  (g 2 134, ⟨true, 2, 130961091192966, some 13, none, 'e'⟩),
  (g 2 133, ⟨true, 2, 128078305540986, some 13, none, 'e'⟩),
  (g 2 132, ⟨true, 2, 125261180369173, some 13, none, 'e'⟩),
  (g 2 131, ⟨true, 2, 122508221914642, some 13, none, 'e'⟩),
  (g 1 13, ⟨true, 2, 119817970432998, some 13, none, 'e'⟩),
  (g 2 129, ⟨true, 2, 117188999424214, some 13, none, 'e'⟩),
  (g 2 128, ⟨true, 2, 114619914876147, some 13, none, 'e'⟩),
  (g 2 127, ⟨true, 2, 112109354525262, some 13, none, 'e'⟩),
  (g 2 126, ⟨true, 2, 109655987134193, some 13, none, 'e'⟩),
  (g 2 125, ⟨true, 2, 10725851178574, some 12, none, 'e'⟩),
  (g 2 124, ⟨true, 2, 104915657192949, some 13, none, 'e'⟩),
  (g 2 123, ⟨true, 2, 102626181024887, some 13, none, 'e'⟩),
  (g 2 122, ⟨true, 2, 100388869247767, some 13, none, 'e'⟩), (g 2 121, g 14 982025354810739),
  (g 1 12, g 14 960660203683407), (g 2 119, g 14 939781909622542), (g 2 118, g 14 919379401237515),
  (g 2 117, g 14 899441859347962), (g 2 116, g 14 879958711245208), (g 2 115, g 14 860919625084303),
  (g 2 114, g 14 842314504403695), (g 2 113, g 14 824133482769652), (g 2 112, g 14 806366918542559),
  (g 2 111, g 14 789005389762343), (g 1 11, g 14 772039689150299), (g 2 109, g 14 755460819224667),
  (g 2 108, g 14 739259987527367), (g 2 107, g 14 723428601959368), (g 2 106, g 14 707958266222203),
  (g 2 105, g 14 692840775363225), (g 2 104, g 14 678068111422233), (g 2 103, g 14 663632439177156),
  (g 2 102, g 14 649526101986545), (g 2 101, g 14 635741617726667)]

/-- Pairs of `pairprod.table` from number 400. -/
def rate4 : List (Tok × Tok) := [
  (⟨true, 1, 1, none, none, 'e'⟩, g 14 622271674821038), (g 2 99, g 14 609109128360291),
  (g 2 98, g 14 596246996310328), (g 2 97, g 14 583678455806737), (g 2 96, g 14 571396839533506),
  (g 2 95, g 13 55939563218412), (g 2 94, g 14 547668467003158), (g 2 93, g 14 536209122406562),
  (g 2 92, g 14 525011518678768), (g 2 91, g 14 514069714744973), (g 1 9, g 14 503377905016802),
  (g 2 89, g 14 492930416309718), (g 2 88, g 14 482721704830521), (g 2 87, g 14 472746353233369),
  (g 2 86, g 14 462999067742718), (g 2 85, g 14 453474675341698), (g 2 84, g 14 444168121024396),
  (g 2 83, g 14 435074465110617), (g 2 82, g 14 426188880621682), (g 2 81, g 14 417506650715878),
  (g 1 8, g 14 409023166182198), (g 2 79, g 14 400733922991044), (g 2 78, g 14 392634519900594),
  (g 2 77, g 14 384720656117562), (g 2 76, g 14 376988129011107), (g 2 75, g 14 369432831878695),
  (g 2 74, g 14 362050751762712), (g 2 73, g 14 354837967316673), (g 2 72, g 14 347790646719914),
  (g 2 71, g 14 340905045639639), (g 1 7, g 13 33417750523925), (g 2 69, g 14 327604450231921),
  (g 2 68, g 14 321182386978358), (g 2 67, g 14 314907901627753), (g 2 66, g 14 308777658300952),
  (g 2 65, g 14 302788397314863), (g 2 64, g 14 296936933447168), (g 2 63, g 14 291220154240431),
  (g 2 62, g 14 285635018344684), (g 2 61, g 14 280178553897633), (g 1 6, g 14 274847856941623),
  (g 2 59, g 13 26964008987651), (g 2 58, g 14 264552479947648), (g 2 57, g 14 259582317768167),
  (g 2 56, g 14 254726955874777), (g 2 55, g 14 249983807316324), (g 2 54, g 14 245350344274367),
  (g 2 53, g 14 240824096715027), (g 2 52, g 14 236402651071414), (g 2 51, g 13 23208364895593),
  (g 1 5, g 14 227864785901766), (g 2 49, g 14 223743810132929), (g 2 48, g 14 219718521362159),
  (g 2 47, g 14 215786769616091), (g 2 46, g 14 211946454087046), (g 2 45, g 14 208195522010854),
  (g 2 44, g 14 204531967570102), (g 2 43, g 14 200953830822243), (g 2 42, g 14 197459196652004),
  (g 2 41, g 14 194046193747519), (g 1 4, g 14 190712993599676), (g 2 39, g 14 187457809524139),
  (g 2 38, g 14 184278895705523), (g 2 37, g 14 181174546263242), (g 2 36, g 14 178143094338502),
  (g 2 35, g 14 175182911202012), (g 2 34, g 13 17229240538189), (g 2 33, g 14 169470021811342),
  (g 2 32, g 14 166714240995656), (g 2 31, g 14 164023578198067), (g 1 3, g 13 16139658264408),
  (g 2 29, g 13 15883183674382), (g 2 28, g 14 156327955332012), (g 2 27, g 14 153883584925182),
  (g 2 26, g 14 151497402995709), (g 2 25, g 14 149168117262315), (g 2 24, g 14 146894464996663),
  (g 2 23, g 13 14467521234566), (g 2 22, g 14 142509153669139), (g 2 21, g 14 140395110892563),
  (g 1 2, g 14 138331932874406), (g 2 19, g 14 136318494787891), (g 2 18, g 13 13435369751676),
  (g 2 17, g 14 132436467064751), (g 2 16, g 14 130565753978483), (g 2 15, g 14 128740532783445),
  (g 2 14, g 13 12695980143279), (g 2 13, g 14 125222580768653), (g 2 12, g 14 123527913995703),
  (g 2 11, g 14 121874866166665), (g 1 1, g 14 120262523679531), (g 2 9, g 14 118689993786204),
  (g 2 8, g 14 117156404112322), (g 2 7, g 14 115660902187998), (g 2 6, g 13 11420265498925),
  (g 2 5, g 14 112780848489862), (g 2 4, g 14 111394687223451), (g 2 3, g 14 110043393855517),
  (g 2 2, g 14 108726208765239), (g 2 1, g 14 107442389636807)]

/-- Pairs of `pairprod.table` from number 500. -/
def rate5 : List (Tok × Tok) := [
  (⟨false, 1, 104083408558608, some 14, some (2, 16), 'E'⟩, g 14 106191211060076),
  (f 2 1, g 13 10497196414033), (f 2 2, g 13 10378395611695), (f 2 3, g 14 102626509990796),
  (f 2 4, g 14 101498964160096), (f 2 5, g 14 100400672064657), (f 2 6, g 15 993310018382129),
  (f 2 7, g 15 982893359687254), (f 2 8, g 15 972750709664565), (f 2 9, g 15 962876170396427),
  (f 1 1, g 15 953263977775999), (f 2 11, g 15 943908498410906), (f 2 12, g 15 934804226597913),
  (f 2 13, g 15 925945781367018), (f 2 14, g 15 917327903593396), (f 2 15, g 14 90894545317568),
  (f 2 16, g 15 900793406279087), (f 2 17, g 15 892866852641927), (f 2 18, g 15 885160992944092),
  (f 2 19, g 15 877671136236107), (f 1 2, g 15 870392697427407), (f 2 21, g 15 863321194832493),
  (f 2 22, g 15 856452247773676), (f 2 23, g 15 849781574239121), (f 2 24, g 15 843304988594976),
  (f 2 25, g 15 837018399350335), (f 2 26, g 14 83091780697387), (f 2 27, g 15 824999301760953),
  (f 2 28, g 15 819259061750149), (f 2 29, g 14 81369335068793), (f 1 3, g 15 808298516040572),
  (f 2 31, g 15 803070987052128), (f 2 32, g 15 798007272847452), (f 2 33, g 15 793103960579262),
  (f 2 34, g 15 788357713618228), (f 2 35, g 15 783765269785134), (f 2 36, g 15 779323439624137),
  (f 2 37, g 14 77502910471621), (f 2 38, g 15 770879216031846), (f 2 39, g 15 766870792322139),
  (f 1 4, g 15 763000918547359), (f 2 41, g 14 75926674434219), (f 2 42, g 15 755665482516768),
  (f 2 43, g 15 752194407592721), (f 2 44, g 15 748850854373418), (f 2 45, g 15 745632216547629),
  (f 2 46, g 15 742535945325845), (f 2 47, g 15 739559548108512), (f 2 48, g 15 736700587185438),
  (f 2 49, g 15 733956678465674), (f 1 5, g 15 731325490237154), (f 2 51, g 15 728804741955433),
  (f 2 52, g 15 726392203060825), (f 2 53, g 14 72408569182332), (f 2 54, g 15 721883074214613),
  (f 2 55, g 14 71978226280664), (f 2 56, g 15 717781215696006), (f 2 57, g 15 715877935453687),
  (f 2 58, g 15 714070468099462), (f 2 59, g 15 712356902100467), (f 1 6, g 15 710735367393319),
  (f 2 61, g 15 709204034429289), (f 2 62, g 15 707761113241953), (f 2 63, g 15 706404852536828),
  (f 2 64, g 15 705133538802467), (f 2 65, g 15 703945495442512), (f 2 66, g 15 702839081928229),
  (f 2 67, g 15 701812692971041), (f 2 68, g 15 700864757714585), (f 2 69, g 15 699993738945849),
  (f 1 7, g 15 699198132324932), (f 2 71, g 15 698476465633004), (f 2 72, g 15 697827298038025),
  (f 2 73, g 15 697249219377817), (f 2 74, g 15 696740849460073), (f 2 75, g 15 696300837378913),
  (f 2 76, g 15 695927860847597), (f 2 77, g 15 695620625547004), (f 2 78, g 15 695377864489523),
  (f 2 79, g 15 695198337397969), (f 1 8, g 15 695080830099199), (f 2 81, g 15 695024153932049),
  (f 2 82, g 15 695027145169281), (f 2 83, g 15 695088664453184), (f 2 84, g 15 695207596244527),
  (f 2 85, g 15 695382848284532), (f 2 86, g 14 69561335106956), (f 2 87, g 15 695898057338223),
  (f 2 88, g 13 6962359415706), (f 2 89, g 15 696625999499291), (f 1 9, g 15 697067247632025),
  (f 2 91, g 15 697558722785525), (f 2 92, g 15 698099481630396), (f 2 93, g 15 698688600246742),
  (f 2 94, g 15 699325173690276), (f 2 95, g 15 700008315568652), (f 2 96, g 15 700737157627807),
  (f 2 97, g 15 701510849348033), (f 2 98, g 15 702328557549578), (f 2 99, g 15 703189466007535)]

/-- Pairs of `pairprod.table` from number 600. -/
def rate6 : List (Tok × Tok) := [
  (n 1, g 15 704092775075789), (f 2 101, g 15 705037701319824), (f 2 102, g 15 706023477158158),
  (f 2 103, g 15 707049350512208), (f 2 104, g 15 708114584464387), (f 2 105, g 15 709218456924218),
  (f 2 106, g 15 710360260302297), (f 2 107, g 15 711539301191891), (f 2 108, g 15 712754900058005),
  (f 2 109, g 14 71400639093373), (f 1 11, g 15 715293121123697), (f 2 111, g 15 716614450914473),
  (f 2 112, g 15 717969753291716), (f 2 113, g 15 719358413663945), (f 2 114, g 15 720779829592749),
  (f 2 115, g 15 722233410529296), (f 2 116, g 15 723718577556968), (f 2 117, g 15 725234763139997),
  (f 2 118, g 15 726781410877946), (f 2 119, g 15 728357975265889), (f 1 12, g 15 729963921460165),
  (f 2 121, g 14 73159872504956), (f 2 122, g 15 733261871831791), (f 2 123, g 15 734952857595171),
  (f 2 124, g 15 736671187905309), (f 2 125, g 15 738416377896747), (f 2 126, g 15 740187952069401),
  (f 2 127, g 15 741985444089698), (f 2 128, g 15 743808396596279), (f 2 129, g 15 745656361010187),
  (f 1 13, g 15 747528897349399), (f 2 131, g 15 749425574047622), (f 2 132, g 15 751345967777239),
  (f 2 133, g 15 753289663276305), (f 2 134, g 15 755256253179499), (f 2 135, g 15 757245337852932),
  (f 2 136, g 15 759256525232726), (f 2 137, g 14 76128943066726), (f 2 138, g 14 76334367676301),
  (f 2 139, g 15 765418893233886), (f 1 14, g 15 767514716753982), (f 2 141, g 15 769630790813667),
  (f 2 142, g 14 77176676557892), (f 2 143, g 14 77392229775385), (f 2 144, g 15 776097050446307),
  (f 2 145, g 14 77829069303652), (f 2 146, g 15 780502901048692), (f 2 147, g 14 78273335602547),
  (f 2 148, g 15 784981745405231), (f 2 149, g 15 787247762402106), (f 1 15, g 15 789531105888698),
  (f 2 151, g 15 791831480281396), (f 2 152, g 15 794148595428259), (f 2 153, g 15 796482166499379),
  (f 2 154, g 15 798831913879683), (f 2 155, g 15 801197563064111), (f 2 156, g 13 8035788445551),
  (f 2 157, g 14 80597549376235), (f 2 158, g 15 808387250904777), (f 2 159, g 14 81081386091464),
  (f 1 16, g 15 813255073343762), (f 2 161, g 15 815710642271813), (f 2 162, g 15 818180326216596),
  (f 2 163, g 15 820663888046292), (f 2 164, g 15 823161094893621), (f 2 165, g 15 825671718071863),
  (f 2 166, g 15 828195532992716), (f 2 167, g 15 830732319085919), (f 2 168, g 15 833281859720626),
  (f 2 169, g 14 83584394212847), (f 1 17, g 14 83841835732829), (f 2 171, g 15 841004900052474),
  (f 2 172, g 15 843603368674887), (f 2 173, g 15 846213565140338), (f 2 174, g 15 848835294895556),
  (f 2 175, g 15 851468366821646), (f 2 176, g 15 854112593167977), (f 2 177, g 15 856767789487473),
  (f 2 178, g 15 859433774573285), (f 2 179, g 15 862110370396799), (f 1 18, g 15 864797402046948),
  (f 2 181, g 15 867494697670818), (f 2 182, g 15 870202088415489), (f 2 183, g 15 872919408371105),
  (f 2 184, g 15 875646494515136), (f 2 185, g 15 878383186657803), (f 2 186, g 15 881129327388644),
  (f 2 187, g 15 883884762024193), (f 2 188, g 15 886649338556746), (f 2 189, g 15 889422907604185),
  (f 1 19, g 15 892205322360848), (f 2 191, g 15 894996438549407), (f 2 192, g 15 897796114373739),
  (f 2 193, g 15 900604210472771), (f 2 194, g 15 903420589875264), (f 2 195, g 15 906245117955525),
  (f 2 196, g 15 909077662390031), (f 2 197, g 15 911918093114925), (f 2 198, g 15 914766282284388),
  (f 2 199, g 15 917622104229848)]

/-- Pairs of `pairprod.table` from number 700. -/
def rate7 : List (Tok × Tok) := [
  (n 2, g 15 920485435420018), (f 2 201, g 15 923356154421744), (f 2 202, g 15 926234141861636),
  (f 2 203, g 15 929119280388481), (f 2 204, g 15 932011454636401), (f 2 205, g 15 934910551188751),
  (f 2 206, g 15 937816458542749), (f 2 207, g 15 940729067074795), (f 2 208, g 15 943648269006493),
  (f 2 209, g 15 946573958371344), (f 1 21, g 15 949506030982097), (f 2 211, g 15 952444384398748),
  (f 2 212, g 15 955388917897174), (f 2 213, g 15 958339532438373), (f 2 214, g 15 961296130638323),
  (f 2 215, g 15 964258616738423), (f 2 216, g 15 967226896576514), (f 2 217, g 15 970200877558466),
  (f 2 218, g 15 973180468630318), (f 2 219, g 15 976165580250964), (f 1 22, g 15 979156124365361),
  (f 2 221, g 14 98215201437826), (f 2 222, g 15 985153165128449), (f 2 223, g 15 988159492863478),
  (f 2 224, g 15 991170915214891), (f 2 225, g 15 994187351173913), (f 2 226, g 15 997208721067615),
  (f 2 227, g 14 100023494653553), (f 2 228, g 14 100326595050673), (f 2 229, g 14 100630165717728),
  (f 1 23, g 14 100934199198824), (f 2 231, g 14 101238688160393), (f 2 232, g 14 101543625389074),
  (f 2 233, g 14 101849003789628), (f 2 234, g 14 102154816382889), (f 2 235, g 14 102461056303763),
  (f 2 236, g 14 102767716799252), (f 2 237, g 14 103074791226529), (f 2 238, g 14 103382273051037),
  (f 2 239, g 14 103690155844629), (f 1 24, g 14 103998433283746), (f 2 241, g 14 104307099147617),
  (f 2 242, g 14 104616147316507), (f 2 243, g 14 104925571769988), (f 2 244, g 14 105235366585242),
  (f 2 245, g 14 105545525935402), (f 2 246, g 14 105856044087916), (f 2 247, g 14 106166915402946),
  (f 2 248, g 14 106478134331793), (f 2 249, g 14 106789695415353), (f 1 25, g 14 107101593282602),
  (f 2 251, g 14 107413822649102), (f 2 252, g 14 107726378315547), (f 2 253, g 13 10803925516632),
  (f 2 254, g 14 108352448168089), (f 2 255, g 14 108665952368419), (f 2 256, g 14 108979762894419),
  (f 2 257, g 14 109293874951401), (f 2 258, g 14 109608283821571), (f 2 259, g 14 109922984862748),
  (f 1 26, g 14 110237973507092), (f 2 261, g 14 110553245259867), (f 2 262, g 14 110868795698222),
  (f 2 263, g 14 111184620469993), (f 2 264, g 14 111500715292526), (f 2 265, g 14 111817075951523),
  (f 2 266, g 14 112133698299906), (f 2 267, g 14 112450578256704), (f 2 268, g 14 112767711805957),
  (f 2 269, g 14 113085094995639), (f 1 27, g 14 113402723936606), (f 2 271, g 14 113720594801552),
  (f 2 272, g 14 114038703823992), (f 2 273, g 14 114357047297259), (f 2 274, g 14 114675621573522),
  (f 2 275, g 14 114994423062814), (f 2 276, g 14 115313448232087), (f 2 277, g 14 115632693604274),
  (f 2 278, g 14 115952155757371), (f 2 279, g 14 116271831323538), (f 1 28, g 14 116591716988212),
  (f 2 281, g 14 116911809489235), (f 2 282, g 14 117232105615998), (f 2 283, g 14 117552602208603),
  (f 2 284, g 14 117873296157032), (f 2 285, g 14 118194184400338), (f 2 286, g 14 118515263925845),
  (f 2 287, g 14 118836531768364), (f 2 288, g 14 119157985009422), (f 2 289, g 14 119479620776502),
  (f 1 29, g 12 1198014362423), (f 2 291, g 14 120123428623992), (f 2 292, g 14 120445595182514),
  (f 2 293, g 14 120767933221852), (f 2 294, g 14 121090440088352), (f 2 295, g 14 121413113170028),
  (f 2 296, g 14 121735949895896), (f 2 297, g 14 122058947735313), (f 2 298, g 14 122382104197322),
  (f 2 299, g 14 122705416830018)]

/-- Pairs of `pairprod.table` from number 800. -/
def rate8 : List (Tok × Tok) := [
  (n 3, g 14 123028883219917), (f 2 301, g 14 123352500991341), (f 2 302, g 14 123676267805809),
  (f 2 303, g 14 124000181361441), (f 2 304, g 14 124324239392368), (f 2 305, g 14 124648439668161),
  (f 2 306, g 14 124972779993258), (f 2 307, g 14 125297258206408), (f 2 308, g 14 125621872180122),
  (f 2 309, g 14 125946619820135), (f 1 31, g 14 126271499064871), (f 2 311, g 14 126596507884928),
  (f 2 312, g 14 126921644282559), (f 2 313, g 14 127246906291168), (f 2 314, g 14 127572291974819),
  (f 2 315, g 14 127897799427741), (f 2 316, g 14 128223426773853), (f 2 317, g 13 12854917216629),
  (f 2 318, g 14 128875033786938), (f 2 319, g 14 129201009845979), (f 1 32, g 14 129527098581442),
  (f 2 321, g 14 129853298258759), (f 2 322, g 14 130179607170333), (f 2 323, g 14 130506023635111),
  (f 2 324, g 14 130832545998159), (f 2 325, g 14 131159172630256), (f 2 326, g 14 131485901927482),
  (f 2 327, g 14 131812732310817), (f 2 328, g 14 132139662225752), (f 2 329, g 14 132466690141901),
  (f 1 33, g 14 132793814552617), (f 2 331, g 13 13312103397462), (f 2 332, g 14 133448346947628),
  (f 2 333, g 14 133775752033994), (f 2 334, g 14 134103247818351), (f 2 335, g 13 13443083290726),
  (f 2 336, g 14 134758505928864), (f 2 337, g 14 135086265532551), (f 2 338, g 14 135414110388616),
  (f 2 339, g 14 135742039187938), (f 1 34, g 14 136070050641652), (f 2 341, g 14 136398143480831),
  (f 2 342, g 14 136726316456177), (f 2 343, g 14 137054568337709), (f 2 344, g 14 137382897914463),
  (f 2 345, g 14 137711303994189), (f 2 346, g 14 138039785403066), (f 2 347, g 14 138368340985406),
  (f 2 348, g 14 138696969603372), (f 2 349, g 14 139025670136702), (f 1 35, g 14 139354441482428),
  (f 2 351, g 14 139683282554612), (f 2 352, g 14 140012192284075), (f 2 353, g 14 140341169618138),
  (f 2 354, g 14 140670213520361), (f 2 355, g 14 140999322970295), (f 2 356, g 14 141328496963225),
  (f 2 357, g 14 141657734509931), (f 2 358, g 14 141987034636443), (f 2 359, g 14 142316396383805),
  (f 1 36, g 14 142645818807838), (f 2 361, g 14 142975300978913), (f 2 362, g 14 143304841981722),
  (f 2 363, g 14 143634440915058), (f 2 364, g 14 143964096891592), (f 2 365, g 14 144293809037658),
  (f 2 366, g 14 144623576493042), (f 2 367, g 14 144953398410771), (f 2 368, g 13 14528327395691),
  (f 2 369, g 14 145613202310355), (f 1 37, g 14 145943182662636), (f 2 371, g 14 146273214217721),
  (f 2 372, g 14 146603296191824), (f 2 373, g 14 146933427813212), (f 2 374, g 14 147263608322018),
  (f 2 375, g 14 147593836970061), (f 2 376, g 13 14792411302066), (f 2 377, g 14 148254435748458),
  (f 2 378, g 14 148584804439246), (f 2 379, g 13 14891521838979), (f 1 38, g 14 149245676907662),
  (f 2 381, g 14 149576179311071), (f 2 382, g 14 149906724928699), (f 2 383, g 14 150237313099539),
  (f 2 384, g 14 150567943172736), (f 2 385, g 14 150898614507427), (f 2 386, g 13 15122932647259),
  (f 2 387, g 13 15156007844689), (f 2 388, g 14 151890869818531), (f 2 389, g 14 152221699985103),
  (f 1 39, g 14 152552568353444), (f 2 391, g 14 152883474339494), (f 2 392, g 14 153214417368152),
  (f 2 393, g 14 153545396873142), (f 2 394, g 14 153876412296873), (f 2 395, g 14 154207463090307),
  (f 2 396, g 14 154538548712827), (f 2 397, g 14 154869668632106), (f 2 398, g 14 155200822323978),
  (f 2 399, g 14 155532009272315)]

/-- Pairs of `pairprod.table` from number 900. -/
def rate9 : List (Tok × Tok) := [
  (n 4, g 14 155863228968901), (f 2 401, g 14 156194480913312), (f 2 402, g 14 156525764612791),
  (f 2 403, g 14 156857079582135), (f 2 404, g 14 157188425343577), (f 2 405, g 13 15751980142667),
  (f 2 406, g 14 157851207368177), (f 2 407, g 14 158182642711955), (f 2 408, g 14 158514107008851),
  (f 2 409, g 14 158845599816591), (f 1 41, g 14 159177120699677), (f 2 411, g 14 159508669229279),
  (f 2 412, g 14 159840244983135), (f 2 413, g 14 160171847545449), (f 2 414, g 14 160503476506792),
  (f 2 415, g 14 160835131464002), (f 2 416, g 14 161166812020091), (f 2 417, g 14 161498517784148),
  (f 2 418, g 14 161830248371244), (f 2 419, g 14 162162003402344), (f 1 42, g 14 162493782504214),
  (f 2 421, g 14 162825585309329), (f 2 422, g 14 163157411455791), (f 2 423, g 13 16348926058724),
  (f 2 424, g 14 163821132352766), (f 2 425, g 14 164153026406829), (f 2 426, g 14 164484942409178),
  (f 2 427, g 14 164816880024762), (f 2 428, g 14 165148838923659), (f 2 429, g 14 165480818780991),
  (f 1 43, g 14 165812819276852), (f 2 431, g 14 166144840096226), (f 2 432, g 14 166476880928915),
  (f 2 433, g 14 166808941469464), (f 2 434, g 14 167141021417091), (f 2 435, g 14 167473120475612),
  (f 2 436, g 14 167805238353369), (f 2 437, g 14 168137374763167), (f 2 438, g 12 1684695294222),
  (f 2 439, g 14 168801702051983), (f 1 44, g 14 169133892378291), (f 2 441, g 13 16946610013109),
  (f 2 442, g 14 169798325044473), (f 2 443, g 14 170130566856595), (f 2 444, g 14 170462825309617),
  (f 2 445, g 14 170795100149637), (f 2 446, g 14 171127391126634), (f 2 447, g 14 171459697994407),
  (f 2 448, g 14 171792020510519), (f 2 449, g 14 172124358436234), (f 1 45, g 14 172456711536467),
  (f 2 451, g 14 172789079579722), (f 2 452, g 14 173121462338041), (f 2 453, g 14 173453859586947),
  (f 2 454, g 14 173786271105394), (f 2 455, g 14 174118696675712), (f 2 456, g 14 174451136083555),
  (f 2 457, g 14 174783589117851), (f 2 458, g 14 175116055570752), (f 2 459, g 14 175448535237586),
  (f 1 46, g 14 175781027916804), (f 2 461, g 14 176113533409937), (f 2 462, g 14 176446051521547),
  (f 2 463, g 14 176778582059177), (f 2 464, g 14 177111124833315), (f 2 465, g 14 177443679657336),
  (f 2 466, g 13 17777624634747), (f 2 467, g 14 178108824722749), (f 2 468, g 13 17844141460497),
  (f 2 469, g 13 17877401581865), (f 1 47, g 14 179106628190986), (f 2 471, g 14 179439251551812),
  (f 2 472, g 13 17977188573356), (f 2 473, g 14 180104530571219), (f 2 474, g 14 180437185902298),
  (f 2 475, g 14 180769851566787), (f 2 476, g 14 181102527407117), (f 2 477, g 14 181435213268124),
  (f 2 478, g 14 181767908997013), (f 2 479, g 14 182100614443321), (f 1 48, g 14 182433329458881),
  (f 2 481, g 14 182766053897787), (f 2 482, g 13 18309878761636), (f 2 483, g 14 183431530473114),
  (f 2 484, g 14 183764282328721), (f 2 485, g 14 184097043045981), (f 2 486, g 14 184429812489785),
  (f 2 487, g 14 184762590527089), (f 2 488, g 14 185095377026876), (f 2 489, g 13 18542817186013),
  (f 1 49, g 14 185760974899801), (f 2 491, g 14 186093786020782), (f 2 492, g 13 18642660509987),
  (f 2 493, g 14 186759432015744), (f 2 494, g 14 187092266648934), (f 2 495, g 14 187425108881793),
  (f 2 496, g 14 187757958598467), (f 2 497, g 14 188090815684871), (f 2 498, g 14 188423680028659),
  (f 2 499, g 14 188756551519201)]

/-- Pairs of `pairprod.table` from number 1000. -/
def rate10 : List (Tok × Tok) := [
  (n 5, g 14 189089430047552), (f 2 501, g 14 189422315506431), (f 2 502, g 14 189755207790193),
  (f 2 503, g 14 190088106794803), (f 2 504, g 14 190421012417814), (f 2 505, g 14 190753924558342),
  (f 2 506, g 13 19108684311704), (f 2 507, g 13 19141976799608), (f 2 508, g 13 19175269909912),
  (f 2 509, g 14 192085636331294), (f 1 51, g 14 192418579599179), (f 2 511, g 14 192751528810777),
  (f 2 512, g 14 193084483875494), (f 2 513, g 14 193417444704117), (f 2 514, g 14 193750411208793),
  (f 2 515, g 14 194083383303012), (f 2 516, g 14 194416360901578), (f 2 517, g 14 194749343920599),
  (f 2 518, g 13 19508233227746), (f 2 519, g 14 195415325890805), (f 1 52, g 14 195748324680521),
  (f 2 521, g 14 196081328567714), (f 2 522, g 14 196414337474695), (f 2 523, g 13 19674735132496),
  (f 2 524, g 14 197080370043169), (f 2 525, g 14 197413393555132), (f 2 526, g 14 197746421787791),
  (f 2 527, g 14 198079454669202), (f 2 528, g 14 198412492128517), (f 2 529, g 14 198745534095968),
  (f 1 53, g 14 199078580502851), (f 2 531, g 14 199411631281511), (f 2 532, g 14 199744686365322),
  (f 2 533, g 14 200077745688675), (f 2 534, g 14 200410809186962), (f 2 535, g 14 200743876796559),
  (f 2 536, g 14 201076948454812), (f 2 537, g 14 201410024100023), (f 2 538, g 14 201743103671433),
  (f 2 539, g 14 202076187109211), (f 1 54, g 14 202409274354437), (f 2 541, g 13 20274236534909),
  (f 2 542, g 14 203075460036033), (f 2 543, g 11 203408558359), (f 2 544, g 14 203741660262583),
  (f 2 545, g 14 204074765692218), (f 2 546, g 14 204407874594173), (f 2 547, g 14 204740986915536),
  (f 2 548, g 14 205074102604201), (f 2 549, g 14 205407221608855), (f 1 55, g 14 205740343878969),
  (f 2 551, g 14 206073469364784), (f 2 552, g 14 206406598017298), (f 2 553, g 14 206739729788258),
  (f 2 554, g 14 207072864630144), (f 2 555, g 14 207406002496162), (f 2 556, g 14 207739143340232),
  (f 2 557, g 14 208072287116975), (f 2 558, g 14 208405433781703), (f 2 559, g 14 208738583290411),
  (f 1 56, g 14 209071735599763), (f 2 561, g 14 209404890667085), (f 2 562, g 14 209738048450353),
  (f 2 563, g 14 210071208908183), (f 2 564, g 14 210404371999821), (f 2 565, g 14 210737537685137),
  (f 2 566, g 14 211070705924609), (f 2 567, g 13 21140387667932), (f 2 568, g 14 211737049910945),
  (f 2 569, g 14 212070225581743), (f 1 57, g 14 212403403654549), (f 2 571, g 14 212736584092764),
  (f 2 572, g 14 213069766860346), (f 2 573, g 14 213402951921804), (f 2 574, g 14 213736139242186),
  (f 2 575, g 14 214069328787074), (f 2 576, g 14 214402520522574), (f 2 577, g 14 214735714415309),
  (f 2 578, g 14 215068910432409), (f 2 579, g 14 215402108541508), (f 1 58, g 13 21573530871073),
  (f 2 581, g 14 216068510908686), (f 2 582, g 14 216401715104467), (f 2 583, g 14 216734921267633),
  (f 2 584, g 14 217068129368208), (f 2 585, g 14 217401339376673), (f 2 586, g 14 217734551263961),
  (f 2 587, g 14 218067765001444), (f 2 588, g 14 218400980560933), (f 2 589, g 14 218734197914668),
  (f 1 59, g 14 219067417035312), (f 2 591, g 14 219400637895945), (f 2 592, g 14 219733860470055),
  (f 2 593, g 14 220067084731537), (f 2 594, g 14 220400310654683), (f 2 595, g 14 220733538214175),
  (f 2 596, g 14 221066767385083), (f 2 597, g 14 221399998142855), (f 2 598, g 14 221733230463315),
  (f 2 599, g 14 222066464322653)]

/-- Pairs of `pairprod.table` from number 1100. -/
def rate11 : List (Tok × Tok) := [
  (n 6, g 14 222399699697425), (f 2 601, g 14 222732936564542), (f 2 602, g 14 223066174901267),
  (f 2 603, g 13 22339941468521), (f 2 604, g 14 223732655894322), (f 2 605, g 14 224065898506889),
  (f 2 606, g 13 22439914250153), (f 2 607, g 14 224732387857188), (f 2 608, g 14 225065634553128),
  (f 2 609, g 13 22539888256893), (f 1 61, g 14 225732131884485), (f 2 611, g 14 226065382479992),
  (f 2 612, g 13 22639863433595), (f 2 613, g 14 226731887433156), (f 2 614, g 14 227065141752699),
  (f 2 615, g 14 227398397275956), (f 2 616, g 13 22773165398459), (f 2 617, g 14 228064911860541),
  (f 2 618, g 14 228398170886024), (f 2 619, g 14 228731431043527), (f 1 62, g 14 229064692315803),
  (f 2 621, g 14 229397954685868), (f 2 622, g 14 229731218136998), (f 2 623, g 14 230064482652723),
  (f 2 624, g 14 230397748216824), (f 2 625, g 14 230731014813329), (f 2 626, g 14 231064282426509),
  (f 2 627, g 14 231397551040876), (f 2 628, g 14 231730820641177), (f 2 629, g 13 23206409121239),
  (f 1 63, g 14 232397362739725), (f 2 631, g 14 232730635208616), (f 2 632, g 14 233063908604717),
  (f 2 633, g 14 233397182913903), (f 2 634, g 14 233730458122264), (f 2 635, g 14 234063734216101),
  (f 2 636, g 14 234397011181924), (f 2 637, g 14 234730289006449), (f 2 638, g 14 235063567676593),
  (f 2 639, g 14 235396847179474), (f 1 64, g 14 235730127502406), (f 2 641, g 14 236063408632895),
  (f 2 642, g 13 23639669055864), (f 2 643, g 14 236729973267523), (f 2 644, g 14 237063256747615),
  (f 2 645, g 14 237396540987167), (f 2 646, g 14 237729825974609), (f 2 647, g 14 238063111698547),
  (f 2 648, g 13 23839639814776), (f 2 649, g 14 238729685311201), (f 1 65, g 14 239062973177987),
  (f 2 651, g 14 239396261737405), (f 2 652, g 14 239729550978902), (f 2 653, g 14 240062840892087),
  (f 2 654, g 14 240396131466727), (f 2 655, g 14 240729422692746), (f 2 656, g 13 24106271456022),
  (f 2 657, g 14 241396007059378), (f 2 658, g 14 241729300180595), (f 2 659, g 14 242062593914396),
  (f 1 66, g 14 242395888251448), (f 2 661, g 14 242729183182561), (f 2 662, g 14 243062478698685),
  (f 2 663, g 14 243395774790907), (f 2 664, g 14 243729071450453), (f 2 665, g 14 244062368668677),
  (f 2 666, g 14 244395666437071), (f 2 667, g 14 244728964747252), (f 2 668, g 14 245062263590966),
  (f 2 669, g 14 245395562960086), (f 1 67, g 14 245728862846608), (f 2 671, g 13 24606216324265),
  (f 2 672, g 14 246395464140449), (f 2 673, g 14 246728765532361), (f 2 674, g 13 24706206741086),
  (f 2 675, g 14 247395369768532), (f 2 676, g 14 247728672598078), (f 2 677, g 14 248061975892309),
  (f 2 678, g 14 248395279644147), (f 2 679, g 14 248728583846619), (f 1 68, g 14 249061888492862),
  (f 2 681, g 14 249395193576115), (f 2 682, g 14 249728499089719), (f 2 683, g 13 25006180502712),
  (f 2 684, g 14 250395111381862), (f 2 685, g 14 250728418147585), (f 2 686, g 14 251061725318031),
  (f 2 687, g 14 251395032887032), (f 2 688, g 14 251728340848518), (f 2 689, g 14 252061649196509),
  (f 1 69, g 14 252394957925118), (f 2 691, g 14 252728267028546), (f 2 692, g 14 253061576501083),
  (f 2 693, g 14 253394886337106), (f 2 694, g 14 253728196531078), (f 2 695, g 14 254061507077546),
  (f 2 696, g 13 25439481797114), (f 2 697, g 14 254728129206573), (f 2 698, g 14 255061440778635),
  (f 2 699, g 12 2553947526822)]

/-- Pairs of `pairprod.table` from number 1200. -/
def rate12 : List (Tok × Tok) := [
  (n 7, g 14 255728064912218), (f 2 701, g 14 256061377463714), (f 2 702, g 14 256394690331793),
  (f 2 703, g 13 25672800351163), (f 2 704, g 14 257061316998477), (f 2 705, g 14 257394630787657),
  (f 2 706, g 14 257727944874564), (f 2 707, g 14 258061259254663), (f 2 708, g 14 258394573923488),
  (f 2 709, g 14 258727888876639), (f 1 71, g 14 259061204109785), (f 2 711, g 14 259394519618662),
  (f 2 712, g 14 259727835399068), (f 2 713, g 14 260061151446868), (f 2 714, g 14 260394467757988),
  (f 2 715, g 14 260727784328416), (f 2 716, g 14 261061101154202), (f 2 717, g 14 261394418231457),
  (f 2 718, g 14 261727735556349), (f 2 719, g 14 262061053125106), (f 1 72, g 14 262394370934014),
  (f 2 721, g 14 262727688979413), (f 2 722, g 14 263061007257701), (f 2 723, g 13 26339432576533),
  (f 2 724, g 14 263727644498807), (f 2 725, g 14 264060963454691), (f 2 726, g 14 264394282629594),
  (f 2 727, g 13 26472760202018), (f 2 728, g 14 265060921623162), (f 2 729, g 14 265394241435306),
  (f 1 73, g 14 265727561453425), (f 2 731, g 14 266060881674381), (f 2 732, g 14 266394202095085),
  (f 2 733, g 14 266727522712493), (f 2 734, g 14 267060843523609), (f 2 735, g 14 267394164525482),
  (f 2 736, g 14 267727485715206), (f 2 737, g 13 26806080708992), (f 2 738, g 14 268394128646805),
  (f 2 739, g 14 268727450383086), (f 1 74, g 14 269060772296031), (f 2 741, g 14 269394094382948),
  (f 2 742, g 14 269727416641187), (f 2 743, g 14 270060739068138), (f 2 744, g 14 270394061661231),
  (f 2 745, g 14 270727384417935), (f 2 746, g 14 271060707335758), (f 2 747, g 14 271394030412245),
  (f 2 748, g 13 27172735364498), (f 2 749, g 14 272060677031582), (f 1 75, g 14 272394000569707),
  (f 2 751, g 14 272727324257046), (f 2 752, g 14 273060648091328), (f 2 753, g 14 273393972070313),
  (f 2 754, g 14 273727296191797), (f 2 755, g 14 274060620453609), (f 2 756, g 14 274393944853612),
  (f 2 757, g 12 2747272693897), (f 2 758, g 12 2750605940598), (f 2 759, g 14 275393918861872),
  (f 1 76, g 14 275727243793904), (f 2 761, g 14 276060568853917), (f 2 762, g 13 27639389403996),
  (f 2 763, g 14 276727219350115), (f 2 764, g 14 277060544782491), (f 2 765, g 14 277393870335226),
  (f 2 766, g 14 277727196006485), (f 2 767, g 14 278060521794465), (f 2 768, g 14 278393847697386),
  (f 2 769, g 14 278727173713497), (f 1 77, g 14 279060499841075), (f 2 771, g 14 279393826078422),
  (f 2 772, g 14 279727152423864), (f 2 773, g 14 280060478875756), (f 2 774, g 14 280393805432477),
  (f 2 775, g 14 280727132092428), (f 2 776, g 14 281060458854037), (f 2 777, g 14 281393785715757),
  (f 2 778, g 14 281727112676061), (f 2 779, g 14 282060439733448), (f 1 78, g 14 282393766886439),
  (f 2 781, g 14 282727094133578), (f 2 782, g 14 283060421473431), (f 2 783, g 14 283393748904585),
  (f 2 784, g 14 283727076425649), (f 2 785, g 14 284060404035254), (f 2 786, g 13 28439373173205),
  (f 2 787, g 14 284727059514711), (f 2 788, g 14 285060387381927), (f 2 789, g 14 285393715332411),
  (f 1 79, g 14 285727043364894), (f 2 791, g 14 286060371478126), (f 2 792, g 14 286393699670879),
  (f 2 793, g 14 286727027941941), (f 2 794, g 14 287060356290117), (f 2 795, g 14 287393684714235),
  (f 2 796, g 14 287727013213137), (f 2 797, g 14 288060341785684), (f 2 798, g 14 288393670430754),
  (f 2 799, g 14 288726999147242)]

/-- Pairs of `pairprod.table` from number 1300. -/
def rate13 : List (Tok × Tok) := [
  (n 8, g 13 28906032793406)]

/-- The pairs of `pairprod.table`. -/
def ratePairs : List (Tok × Tok) :=
  rate0 ++
  rate1 ++
  rate2 ++
  rate3 ++
  rate4 ++
  rate5 ++
  rate6 ++
  rate7 ++
  rate8 ++
  rate9 ++
  rate10 ++
  rate11 ++
  rate12 ++
  rate13

end Shipped
end QED
