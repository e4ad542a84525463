sgtin96 001100000011011001000101000111111101010000001100000011100100000000000000000000000001001001100111
sgtin198 001101100011011001000101000111111101010000001100000011100101100110110010110000101011111100010000000000000000000000000000000000000000000000000000000000000000000000000000000000000000000000000000000000
sscc96 001100010011011001000101000111111101010001001001100101100000001011010010000000000000000000000000
sgln96 001100100011011001000101000111111101010001100000011100100000000000000000000000000001001001100111
sgln195 001110010011011001000101000111111101010001100000011100101100110110010110000101011111100010000000000000000000000000000000000000000000000000000000000000000000000000000000000000000000000000000000000
grai96 001100110011011001000101000111111101010000001100000011100100000000000000000000000001001001100111
grai170 00110111001101100100010100011111110101000000110000001110010110011011001011000010101111110001000000000000000000000000000000000000000000000000000000000000000000000000000000
giai96 001101000011011001000101000111111101010000000000000000000000000000000000000000000001001001100111
giai202 0011100000110110010001010001111111010101100110110010110000101011111100010000000000000000000000000000000000000000000000000000000000000000000000000000000000000000000000000000000000000000000000000000000000
gsrn96 001011010011011001000101000111111101010001001001100101100000001011010010000000000000000000000000
gsrnp96 001011100011011001000101000111111101010001001001100101100000001011010010000000000000000000000000
gdti96 001011000011011001000101000111111101010001100000011100100000000000000000000000000001001001100111
gdti174 001111100011011001000101000111111101010001100000011100101100110110010110000101011111100010000000000000000000000000000000000000000000000000000000000000000000000000000000000000
cpi96 001111000011011001000101000111111101010000000000110000001110011010000000000000000011000000111001
cpiVar 001111010011011001000101000111111101011101010100000100011101111011110110101101001100110000000000000000000000000000000011000000111001
sgcn96 001111110011011001000101000111111101011000010010011001000000000000000000000000011001100100000111
itip110 01000000001101100100010100011111110101000000110000001110010000010000010000000000000000000000000000001111010101
itip212 01000001001101100100010100011111110101000000110000001110010000010000010001100110110010110000101011111100010000000000000000000000000000000000000000000000000000000000000000000000000000000000000000000000000000000000
gid96 001101010000000011101000011011111000000000000000101010011110000000000000000000000000010110000110
usdod96 001011110001001000000100001101000001010001110100010101011001000000000000000000000001011000101110
adiVar 00111011000001010111111000110001011000111001000011110011001011001100111001111000110100010000011000110001000000110010010111001101000001101101110101110010000000
