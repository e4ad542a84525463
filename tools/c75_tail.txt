/-! ### Non-vacuity -/

/-- Filter value `+01`, item reference `+0_0_011000000111001`, serial ` 0b000…1001001100111`: every field is a number, and the rewritten text is the
tag's bit string. -/
example :
    (py "00110000+01101100100010100011111110101+0_0_011000000111001 0b00000000000000000000001001001100111").take 8 = py "00110000" ∧ 96 ≤ (py "00110000+01101100100010100011111110101+0_0_011000000111001 0b00000000000000000000001001001100111").length ∧
    Reads (((py "00110000+01101100100010100011111110101+0_0_011000000111001 0b00000000000000000000001001001100111").drop 11).take 3) 5 ∧
    (py "00110000+01101100100010100011111110101+0_0_011000000111001 0b00000000000000000000001001001100111").take 8 ++
        fieldsBits ((py "00110000+01101100100010100011111110101+0_0_011000000111001 0b00000000000000000000001001001100111").drop 8) (3 :: keyWidths 47 5 ++ [38]) =
      py "001100000011011001000101000111111101010000001100000011100100000000000000000000000001001001100111" :=
  ⟨by decide, by decide, by unfold Reads; decide +kernel, by decide +kernel⟩

/-- A field may also be a negative number: here the serial is read as `-5`, and encoding the object again yields the same text, minus sign included. -/
example : (SGTIN.fromBinary (py "0011000000110110010001010001111111010100000011000000111001-0000000000000000000000000000000000101")).map (·.serial) = .ok (py "-5") ∧
    (SGTIN.fromBinary (py "0011000000110110010001010001111111010100000011000000111001-0000000000000000000000000000000000101") >>= fun x => x.binary .sgtin96 1) = .ok (py "0011000000110110010001010001111111010100000011000000111001-0000000000000000000000000000000000101") := by decide +kernel

